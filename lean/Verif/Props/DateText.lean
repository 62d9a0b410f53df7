import Verif.Lemmas.DateExact

/-!
# C80: texts with dates and times

The default formats of `mf_strptime` with the `strptime` of pyarrow (`Model/StrptimeLib`).
-/

namespace Rxls

theorem parse_all {l : List (Str × Int)}
    (h : ∀ p ∈ l, mfElem arrowStrptime (defaultFormats timeFormatsArrow) (some p.1) = p.2 ∧ p.2 ≠ 0) :
    parseTexts (l.map (·.1)) = .ok (l.map (·.2)) := by
  have e : ((l.map (·.1)).map fun s => mfElem arrowStrptime (defaultFormats timeFormatsArrow) (some s)) = l.map (·.2) := by
    rw [List.map_map]
    exact List.map_congr_left fun p hp => (h p hp).1
  rw [parseTexts_eq, e, if_neg]
  simp only [List.any_map, List.any_eq_true, Function.comp, decide_eq_true_eq, not_exists, not_and]
  exact fun p hp => (h p hp).2

/-- C80, what holds: a column of texts that write moments after 1970-01-01 00:00, in any mixture of the styles, is read
as these moments.  Missing (the code is wrong there): two-digit years followed by a time of day, and moments up
to 1970-01-01 00:00. -/
theorem C80_texts_partial (l : List (Str × Int)) (h : ∀ p ∈ l, WritesMoment p.1 p.2) (hpos : ∀ p ∈ l, 0 < p.2)
    (hshort : ∀ p ∈ l, ∀ st ts d c, st ≠ DateStyle.iso → p.1 = DateStyle.write2 st d ++ TimeStyle.write ts c →
      ts = .nothing) :
    parseTexts (l.map (·.1)) = .ok (l.map (·.2)) := by
  apply parse_all
  intro p hp
  obtain ⟨s, v⟩ := p
  have hp0 : (0 : Int) < v := hpos _ hp
  refine ⟨?_, by simp only; omega⟩
  have hs := hshort _ hp
  have hw := h _ hp
  simp only at hw hs ⊢
  cases hw with
  | full st ts d c k hd hy hk hc hf =>
    refine full_value hd hy hc hf ?_ (by omega)
    rw [daysFromCivil_eq hd hk, timeOfDay_pos (by omega)]
  | short st ts d c k hst hd hy1 hy2 hk hc hf =>
    have := hs st ts d c hst rfl
    subst this
    have hc0 : c = ⟨0, 0, 0⟩ := hf
    subst hc0
    rw [TimeStyle.write, List.append_nil]
    have e : k * 86400000 + ((Clock.millis ⟨0, 0, 0⟩ : Nat) : Int) = k * 86400000 := by simp [Clock.millis]
    rw [e] at hp0 ⊢
    exact short_value hst hd hy1 hy2 (by rw [daysFromCivil_eq hd hk]) hp0
  | clock b c hc hb => exact clock_value hc hb (by omega)

/-- C80 is violated: with a two-digit year and a time of day, the date is dropped without an error, whatever it is. -/
theorem C80_two_digit_year_loses_date (st : DateStyle) (ts : TimeStyle) (d : Date) (c : Clock) (hst : st ≠ .iso)
    (hd : d.Real) (hc : c.Real) (hf : ts.Fits c) (h0 : c.millis ≠ 0) :
    parseTexts [st.write2 d ++ ts.write c] = .ok [(c.millis : Int)] :=
  parse_all (l := [(st.write2 d ++ ts.write c, (c.millis : Int))]) (by
    intro p hp
    simp only [List.mem_singleton] at hp
    subst hp
    exact ⟨short_time_value hst hd hc hf h0, by simp only; exact_mod_cast h0⟩)

example : DateStyle.slash.write2 ⟨2024, 2, 1⟩ ++ (TimeStyle.after ' ' false).write ⟨10, 20, 0⟩ = "01/02/24 10:20".toList ∧
    parseTexts ["01/02/24 10:20".toList] = .ok [37200000] ∧
    parseTexts ["01/02/24".toList, "01/02/2024 10:20".toList, "2024-02-01T10:20:30".toList, "10:20".toList] =
      .ok [1706745600000, 1706782800000, 1706782830000, 37200000] := by decide +kernel

/-- C80 is violated: of a moment before 1970 only the time of day remains, without an error. -/
theorem C80_before_1970 (st : DateStyle) (ts : TimeStyle) (d : Date) (c : Clock)
    (hd : d.Real) (hy : d.year < 1970) (hc : c.Real) (hf : ts.Fits c) (h0 : c.millis ≠ 0) :
    parseTexts [st.write d ++ ts.write c] = .ok [(c.millis : Int)] :=
  parse_all (l := [(st.write d ++ ts.write c, (c.millis : Int))]) (by
    intro p hp
    simp only [List.mem_singleton] at hp
    subst hp
    have hb := real_bounds hd
    have := clock_lt hc
    refine ⟨full_value hd (by omega) hc hf ?_ (by simp only; exact_mod_cast h0), by simp only; exact_mod_cast h0⟩
    simp only
    rw [timeOfDay_old (daysFromCivil_old hy hb.2.1 hb.2.2.2 hb.1 hb.2.2.1) (by omega) (by omega)])

/-- C80 is violated: midnights up to 1970-01-01 and midnight alone make a whole column of texts fail. -/
theorem C80_midnights : ∀ s ∈ ["1970-01-01", "1969-12-31", "31/12/1969 00:00", "31.12.69", "00:00", "00:00:00"],
    parseTexts ["2024-02-01".toList, s.toList] = .error .arrowInvalid := by
  decide +kernel

example : WritesMoment "31.12.69".toList (-86400000) := by
  have := WritesMoment.short .dot .nothing ⟨1969, 12, 31⟩ ⟨0, 0, 0⟩ (-1) (by decide)
    (by simp [Date.Real, daysInMonth]) (by decide) (by decide) (by simp [DaysFromEpoch, nextDay, daysInMonth, epoch1970])
    (by simp [Clock.Real]) rfl
  exact this

/-- The text `s` that writes the moment `v` is read as this: the moment, if it is after 1970-01-01 00:00 and no time other
than midnight follows a year of two digits (the ninth character is a space or T); else the time of day.  0 stands for
failure. -/
def readsAs (s : Str) (v : Int) : Int :=
  if 0 < v ∧ ((s[8]? = some ' ' ∨ s[8]? = some 'T') → v % 86400000 = 0) then v else v % 86400000

theorem elem_exact {s : Str} {v : Int} (h : WritesMoment s v) :
    mfElem arrowStrptime (defaultFormats timeFormatsArrow) (some s) = readsAs s v := by
  cases h with
  | full st ts d c k hd hy hk hc hf =>
    have h8 : ¬ ((st.write d ++ ts.write c)[8]? = some ' ' ∨ (st.write d ++ ts.write c)[8]? = some 'T') := by
      cases st <;> simp [DateStyle.write, digits2, digits4] <;> exact ⟨digitChar_ne _ (by decide), digitChar_ne _ (by decide)⟩
    have hlt := clock_lt hc
    have hval : timeOfDay (daysFromCivil d.year d.month d.day * 86400000 + c.millis) =
        readsAs (st.write d ++ ts.write c) (k * 86400000 + c.millis) := by
      rw [daysFromCivil_eq hd hk]
      unfold readsAs timeOfDay
      by_cases h0 : k * 86400000 + (c.millis : Int) < 0
      · rw [if_pos h0, if_neg (by omega)]
      · rw [if_neg h0]
        split
        · rfl
        · rename_i hn
          have : ¬ 0 < k * 86400000 + (c.millis : Int) := fun hp => hn ⟨hp, fun h => absurd h h8⟩
          omega
    by_cases hz : readsAs (st.write d ++ ts.write c) (k * 86400000 + c.millis) = 0
    · have hz' := hz
      unfold readsAs at hz'
      have hm : c.millis = 0 ∧ k ≤ 0 := by split at hz' <;> omega
      have := millis_zero hm.1
      subst this
      rw [hz]
      exact full_zero hd hy hf (by rw [daysFromCivil_eq hd hk]; exact hm.2)
    · exact full_value hd hy hc hf hval.symm hz
  | short st ts d c k hst hd hy1 hy2 hk hc hf =>
    have hlt := clock_lt hc
    by_cases hm : c.millis = 0
    · have := millis_zero hm
      subst this
      rw [short_midnight hst hd hy1 hy2 hf, daysFromCivil_eq hd hk]
      unfold readsAs timeOfDay
      rw [hm]
      split
      · rw [if_neg (by omega)]
        simp
      · split
        · simp
        · rename_i h1 h2
          have : ¬ 0 < k * 86400000 + ((0 : Nat) : Int) := fun hp => h2 ⟨hp, fun _ => by omega⟩
          omega
    · rw [short_time_value hst hd hc hf hm]
      cases ts with
      | nothing =>
        have hf : c = ⟨0, 0, 0⟩ := hf
        subst hf
        exact absurd rfl hm
      | after sep b =>
        obtain ⟨hsep, -⟩ := hf
        unfold readsAs
        rw [if_neg]
        · omega
        · rintro ⟨-, h⟩
          have := h (by
            have e : (st.write2 d ++ (TimeStyle.after sep b).write c)[8]? = some sep := by simp [DateStyle.write2, digits2, TimeStyle.write]
            rw [e]
            simpa using hsep)
          omega
  | clock b c hc hb =>
    have hlt := clock_lt hc
    have hr : readsAs (c.write b) c.millis = c.millis := by
      unfold readsAs
      split
      · rfl
      · omega
    rw [hr]
    by_cases hm : c.millis = 0
    · have := millis_zero hm
      subst this
      rw [clock_zero]
      exact (by exact_mod_cast hm.symm)
    · exact clock_value hc hb hm

/-- C80, exactly.  A column of texts that write moments in any mixture of the styles gives `readsAs` of every text, and
ArrowInvalid if that is 0 for one of them. -/
theorem C80_exact (l : List (Str × Int)) (h : ∀ p ∈ l, WritesMoment p.1 p.2) :
    parseTexts (l.map (·.1)) = if ∀ p ∈ l, readsAs p.1 p.2 ≠ 0 then .ok (l.map fun p => readsAs p.1 p.2)
      else .error .arrowInvalid := by
  have e : ((l.map (·.1)).map fun s => mfElem arrowStrptime (defaultFormats timeFormatsArrow) (some s)) =
      l.map fun p => readsAs p.1 p.2 := by
    rw [List.map_map]
    exact List.map_congr_left fun p hp => elem_exact (h p hp)
  rw [parseTexts_eq, e]
  by_cases hz : ∀ p ∈ l, readsAs p.1 p.2 ≠ 0
  · rw [if_pos hz, if_neg]
    simpa [List.any_eq_true] using hz
  · rw [if_neg hz, if_pos]
    simpa [List.any_eq_true] using hz

/-- C80.  So the column is read as the moments its texts write exactly if they are all after 1970-01-01 00:00, and those
with a time other than midnight after a year of two digits are on 1970-01-01. -/
theorem C80_right_exact (l : List (Str × Int)) (h : ∀ p ∈ l, WritesMoment p.1 p.2) :
    parseTexts (l.map (·.1)) = .ok (l.map (·.2)) ↔ ∀ p ∈ l, 0 < p.2 ∧
      ((p.1[8]? = some ' ' ∨ p.1[8]? = some 'T') → p.2 % 86400000 = 0 ∨ p.2 < 86400000) := by
  have key : ∀ p ∈ l, (readsAs p.1 p.2 ≠ 0 ∧ readsAs p.1 p.2 = p.2) ↔ (0 < p.2 ∧
      ((p.1[8]? = some ' ' ∨ p.1[8]? = some 'T') → p.2 % 86400000 = 0 ∨ p.2 < 86400000)) := by
    rintro ⟨s, v⟩ -
    unfold readsAs
    simp only
    by_cases h8 : s[8]? = some ' ' ∨ s[8]? = some 'T'
    · simp only [h8, true_imp_iff]
      split <;> omega
    · simp only [h8, false_imp_iff, and_true]
      split <;> omega
  rw [C80_exact l h, ← forall₂_congr key]
  by_cases hz : ∀ p ∈ l, readsAs p.1 p.2 ≠ 0
  · rw [if_pos hz, Except.ok.injEq]
    constructor
    · exact fun e p hp => ⟨hz p hp, List.map_inj_left.mp e p hp⟩
    · exact fun e => List.map_congr_left fun p hp => (e p hp).2
  · rw [if_neg hz]
    exact ⟨nofun, fun e => absurd (fun p hp => (e p hp).1) hz⟩

example : readsAs "01/02/24 10:20".toList 1706782800000 = 37200000 ∧ readsAs "01/02/24 00:00".toList 1706745600000 = 1706745600000 ∧
    readsAs "31.12.1969 10:20".toList (-49200000) = 37200000 ∧ readsAs "31.12.69".toList (-86400000) = 0 ∧
    parseTexts ["01/02/24 00:00".toList, "31.12.1969 10:20".toList, "01/01/70 10:20".toList] = .ok [1706745600000, 37200000, 37200000] := by
  decide +kernel

/-- The conversion reads a number. -/
def Dir.isNumber : Dir → Bool
  | .lit _ => false
  | .space => false
  | _ => true

theorem run_leading (d : Dir) (hd : d.isNumber = true) (sp s : Str) (hsp : ∀ c ∈ sp, cSpace c = true) (t : Tm) :
    d.run (sp ++ s) t = d.run s t := by
  have key : ∀ lo hi n, getNumber lo hi n (sp ++ s) = getNumber lo hi n s := by
    intro lo hi n
    unfold getNumber
    rw [List.dropWhile_append_of_pos hsp]
  cases d with
  | lit c => simp [Dir.isNumber] at hd
  | space => simp [Dir.isNumber] at hd
  | _ => simp only [Dir.run, key]

/-- C80.  White space (blank, tab, line feed, vertical tab, form feed, carriage return) before a text makes no
difference. -/
theorem C80_leading_space (l : List (Str × Str))
    (h : ∀ p ∈ l, ∀ c ∈ p.1, c ∈ [' ', '\t', '\n', '\u000b', '\u000c', '\r']) :
    parseTexts (l.map fun p => p.1 ++ p.2) = parseTexts (l.map (·.2)) := by
  have hsp : ∀ c ∈ [' ', '\t', '\n', '\u000b', '\u000c', '\r'], cSpace c = true := by decide
  replace h : ∀ p ∈ l, ∀ c ∈ p.1, cSpace c = true := fun p hp c hc => hsp c (h p hp c hc)
  have hfm : ∀ f ∈ defaultFormats timeFormatsArrow,
      ((fmtDirs f).bind List.head?).any Dir.isNumber = true := by
    decide +kernel
  have key : ∀ p ∈ l, ∀ f ∈ defaultFormats timeFormatsArrow,
      arrowStrptime f (some (p.1 ++ p.2)) = arrowStrptime f (some p.2) := by
    intro p hp f hf
    have h1 := hfm f hf
    unfold arrowStrptime
    cases hd : fmtDirs f with
    | none => rfl
    | some ds =>
      cases ds with
      | nil => rw [hd] at h1; simp at h1
      | cons d ds =>
        rw [hd] at h1
        simp only [Option.bind_some, List.head?_cons, Option.any_some] at h1
        simp only [runDirs, run_leading d h1 p.1 p.2 (h p hp)]
  have hel : ∀ p ∈ l, mfElem arrowStrptime (defaultFormats timeFormatsArrow) (some (p.1 ++ p.2)) =
      mfElem arrowStrptime (defaultFormats timeFormatsArrow) (some p.2) := by
    intro p hp
    unfold mfElem
    refine List.foldl_ext _ _ _ fun a f hf => ?_
    unfold mfStep strptimeElem
    rw [key p hp f hf]
  rw [parseTexts_eq, parseTexts_eq, List.map_map, List.map_map]
  rw [show l.map ((fun s => mfElem arrowStrptime (defaultFormats timeFormatsArrow) (some s)) ∘ fun p => p.1 ++ p.2) =
    l.map ((fun s => mfElem arrowStrptime (defaultFormats timeFormatsArrow) (some s)) ∘ (·.2)) from
      List.map_congr_left hel]

/-- White space inside a date does not matter either; after it, it does. -/
example : parseTexts [" \t01/02/2024 10:20".toList, "01/ 2/2024    10:20".toList] =
      .ok [1706782800000, 1706782800000] ∧
    parseTexts ["01/02/2024 ".toList] = .error .arrowInvalid := by
  decide +kernel

end Rxls
