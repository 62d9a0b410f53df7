import Verif.Lemmas.DateFormats

namespace Rxls

/-- `mf_strptime(texts)` without polars. -/
def parseTexts (arr : List Str) : Py (List Int) :=
  mfStrptime arrowStrptime (defaultFormats timeFormatsArrow) (arr.map some) [] true

theorem parseTexts_eq (arr : List Str) : parseTexts arr =
    if (arr.map fun s => mfElem arrowStrptime (defaultFormats timeFormatsArrow) (some s)).any (fun r => decide (r = 0)) then
      .error .arrowInvalid
    else .ok (arr.map fun s => mfElem arrowStrptime (defaultFormats timeFormatsArrow) (some s)) := by
  have hf : defaultFormats timeFormatsArrow ≠ [] := by decide +kernel
  have := mfStrptime_eq arrowStrptime [] (arr.map some) (defaultFormats timeFormatsArrow) true hf
  rw [List.map_map, Bool.true_and] at this
  rw [parseTexts, show (fun s => mfElem arrowStrptime (defaultFormats timeFormatsArrow) (some s)) =
    mfElem arrowStrptime (defaultFormats timeFormatsArrow) ∘ some from rfl, ← this]
  have he : (defaultFormats timeFormatsArrow).isEmpty = false := by decide +kernel
  unfold mfStrptime
  rw [he]
  rfl

theorem timeOfDay_pos {v : Int} (h : 0 ≤ v) : timeOfDay v = v := by
  unfold timeOfDay; rw [if_neg (by omega)]

theorem clock_lt {c : Clock} (h : c.Real) : c.millis < 86400000 := by
  obtain ⟨h1, h2, h3⟩ := h; unfold Clock.millis; omega

theorem millis_date (y m d : Nat) (h : 1 ≤ d) :
    ({ year := y, month := m, day := d } : Tm).millis = daysFromCivil y m d * 86400000 := by
  simp [Tm.millis, Nat.max_eq_left h]

theorem daysFromCivil_old {y m d : Nat} (h1 : y < 1970) (h2 : m ≤ 12) (h3 : d ≤ 31) (h4 : 1 ≤ m) (h5 : 1 ≤ d) :
    daysFromCivil y m d < 0 := by
  unfold daysFromCivil
  simp only
  split <;> omega

/-- Dates and times before 1970 keep the time only. -/
theorem timeOfDay_old {k c : Int} (hk : k < 0) (h0 : 0 ≤ c) (hc : c < 86400000) : timeOfDay (k * 86400000 + c) = c := by
  unfold timeOfDay
  rw [if_pos (by omega)]
  omega

theorem day_le {s r : Str} {t : Tm} {k : Nat} (h : runDirs [.day] s t = some (r, { t with day := k })) : k ≤ 31 := by
  simp only [runDirs, Dir.run] at h
  cases hg : getNumber 1 31 2 s with
  | none => simp [hg] at h
  | some p =>
    simp only [hg, Option.map_some, Option.some.injEq, Prod.mk.injEq, Tm.mk.injEq] at h
    have : p.1 ≤ 31 := by
      unfold getNumber at hg
      split at hg
      · cases hg
      · split at hg
        · simp only at hg
          split at hg
          · rename_i hh; injection hg with hg; rw [← hg]; exact hh.2
          · cases hg
        · cases hg
    omega

theorem full_value {st : DateStyle} {ts : TimeStyle} {d : Date} {c : Clock} (hd : d.Real) (hy : d.year < 10000)
    (hc : c.Real) (hf : ts.Fits c) {v : Int}
    (hv : v = timeOfDay (daysFromCivil d.year d.month d.day * 86400000 + c.millis)) (hne : v ≠ 0) :
    mfElem arrowStrptime (defaultFormats timeFormatsArrow) (some (st.write d ++ ts.write c)) = v := by
  have hb := real_bounds hd
  have key : suffixBlock (some (ts.write c, { year := d.year, month := d.month, day := d.day })) = some v :=
    suffixBlock_write hf hc ⟨rfl, rfl, rfl⟩ (by rw [millis_date _ _ _ hb.2.2.1]; exact hv) hne
  rw [mfElem_default]
  have hsl := fun r => run_other_sep d.day (c := '/') (by decide) r
  have hdo := fun r => run_other_sep d.day (c := '.') (by decide) r
  have hda := fun r => run_other_sep d.day (c := '-') (by decide) r
  cases st with
  | iso => simp [dateDirs, run_iso hd hy, key]
  | slash =>
    simp only [DateStyle.write, DateStyle.sep, List.append_assoc, List.cons_append]
    simp [dateDirs, (hsl _).1 (by decide), run_dmy hd hy, key, suffixBlock_none]
  | dot =>
    simp only [DateStyle.write, DateStyle.sep, List.append_assoc, List.cons_append]
    simp [dateDirs, (hdo _).1 (by decide), (hdo _).2 '/' _ (by decide) (by decide), run_dmy hd hy, key, suffixBlock_none]
  | dash =>
    simp only [DateStyle.write, DateStyle.sep, List.append_assoc, List.cons_append]
    have hi : suffixBlock (runDirs isoDirs (digits2 d.day ++ '-' :: (digits2 d.month ++ '-' :: (digits4 d.year ++
        ts.write c))) {}) = none := by
      rw [run_iso_dash hd]
      rcases run_day_digits4 d.year (ts.write c) { year := d.day, month := d.month } with h | ⟨k, r', t', h, ha⟩
      · rw [h]; rfl
      · rw [h]; exact suffixBlock_digit _ (by rw [ha]; exact (afterDigits_time hf).1)
    simp [dateDirs, hi, (hda _).2 '/' _ (by decide) (by decide), (hda _).2 '.' _ (by decide) (by decide), run_dmy hd hy, key,
      suffixBlock_none]

/-- A date before 1970 at midnight counts as nothing. -/
theorem old_midnight {y m d : Nat} (h1 : y < 1970) (h2 : 1 ≤ m ∧ m ≤ 12 ∧ d ≤ 31) :
    suffixBlock (some ([], { year := y, month := m, day := d })) = none := by
  have hk : daysFromCivil y m (max d 1) < 0 := daysFromCivil_old h1 h2.2.1 (by omega) h2.1 (by omega)
  rw [suffixBlock_nothing, if_pos]
  have := timeOfDay_old hk (le_refl 0) (by norm_num)
  rw [add_zero] at this
  rw [← this]
  simp [Tm.millis]

/-- Before 1970, the time remains. -/
theorem old_time {ts : TimeStyle} {c : Clock} (hc : c.Real) (hf : ts.Fits c) (h0 : c.millis ≠ 0) {y m d : Nat}
    (h1 : y < 1970) (h2 : 1 ≤ m ∧ m ≤ 12 ∧ d ≤ 31) :
    suffixBlock (some (ts.write c, { year := y, month := m, day := d })) = some (c.millis : Int) := by
  have hk : daysFromCivil y m (max d 1) < 0 := daysFromCivil_old h1 h2.2.1 (by omega) h2.1 (by omega)
  have hm := clock_lt hc
  refine suffixBlock_write hf hc ⟨rfl, rfl, rfl⟩ ?_ (by exact_mod_cast h0)
  rw [show ({ year := y, month := m, day := d } : Tm).millis = daysFromCivil y m (max d 1) * 86400000 by simp [Tm.millis],
    timeOfDay_old hk (by omega) (by omega)]

/-- A date with two digits for the year, without time. -/
theorem short_value {st : DateStyle} (hst : st ≠ .iso) {d : Date} (hd : d.Real) (hy1 : 1969 ≤ d.year) (hy2 : d.year < 2069)
    {v : Int} (hv : v = daysFromCivil d.year d.month d.day * 86400000) (hpos : 0 < v) :
    mfElem arrowStrptime (defaultFormats timeFormatsArrow) (some (st.write2 d)) = v := by
  have hb := real_bounds hd
  have hn : d.year % 100 < 100 := Nat.mod_lt _ (by norm_num)
  have hyear : (if 69 ≤ d.year % 100 then 1900 + d.year % 100 else 2000 + d.year % 100) = d.year := by split <;> omega
  have key : suffixBlock (some ([], { year := d.year, month := d.month, day := d.day })) = some v := by
    rw [suffixBlock_nothing, millis_date _ _ _ hb.2.2.1, ← hv, timeOfDay_pos (by omega), if_neg (by omega)]
  have old : suffixBlock (some ([], { year := d.year % 100, month := d.month, day := d.day })) = none :=
    old_midnight (by omega) (by omega)
  have r4 := fun c => run_dmy2_as4 hd c hn [] (by simp)
  have r2 := fun c => run_dmy2 hd c hn []
  rw [hyear] at r2
  rw [mfElem_default]
  have hsl := fun r => run_other_sep d.day (c := '/') (by decide) r
  have hdo := fun r => run_other_sep d.day (c := '.') (by decide) r
  have hda := fun r => run_other_sep d.day (c := '-') (by decide) r
  simp only [List.append_nil] at r4 r2
  cases st with
  | iso => exact absurd rfl hst
  | slash =>
    simp only [DateStyle.write2, DateStyle.sep, List.append_assoc, List.cons_append]
    simp [dateDirs, (hsl _).1 (by decide), r4, r2, key, old, suffixBlock_none]
  | dot =>
    simp only [DateStyle.write2, DateStyle.sep, List.append_assoc, List.cons_append]
    simp [dateDirs, (hdo _).1 (by decide), (hdo _).2 '/' _ (by decide) (by decide), r4, r2, key, old, suffixBlock_none]
  | dash =>
    simp only [DateStyle.write2, DateStyle.sep, List.append_assoc, List.cons_append]
    have hi : suffixBlock (runDirs isoDirs (digits2 d.day ++ '-' :: (digits2 d.month ++ '-' :: digits2 (d.year % 100))) {}) =
        none := by
      rw [run_iso_dash hd]
      have := run_day_digits2 (d.year % 100) [] { year := d.day, month := d.month }
      rw [List.append_nil] at this
      rcases this with h | ⟨k, t', h⟩ | ⟨k, h⟩
      · rw [h]; rfl
      · rw [h]; exact suffixBlock_digit _ (by simp [afterDigits])
      · rw [h]
        have hk : k ≤ 31 := day_le h
        exact old_midnight (y := d.day) (m := d.month) (d := k) (by omega) (by omega)
    simp [dateDirs, hi, (hda _).2 '/' _ (by decide) (by decide), (hda _).2 '.' _ (by decide) (by decide), r4, r2, key, old,
      suffixBlock_none]

/-- With a time, the date is lost. -/
theorem short_time_value {st : DateStyle} (hst : st ≠ .iso) {ts : TimeStyle} {d : Date} {c : Clock} (hd : d.Real)
    (hc : c.Real) (hf : ts.Fits c) (h0 : c.millis ≠ 0) :
    mfElem arrowStrptime (defaultFormats timeFormatsArrow) (some (st.write2 d ++ ts.write c)) = c.millis := by
  have hb := real_bounds hd
  have hn : d.year % 100 < 100 := Nat.mod_lt _ (by norm_num)
  have old : suffixBlock (some (ts.write c, { year := d.year % 100, month := d.month, day := d.day })) =
      some (c.millis : Int) := old_time hc hf h0 (by omega) (by omega)
  have r4 := fun x => run_dmy2_as4 hd x hn (ts.write c) (afterDigits_time hf).2
  rw [mfElem_default]
  have hsl := fun r => run_other_sep d.day (c := '/') (by decide) r
  have hdo := fun r => run_other_sep d.day (c := '.') (by decide) r
  have hda := fun r => run_other_sep d.day (c := '-') (by decide) r
  cases st with
  | iso => exact absurd rfl hst
  | slash =>
    simp only [DateStyle.write2, DateStyle.sep, List.append_assoc, List.cons_append]
    simp [dateDirs, (hsl _).1 (by decide), r4, old, suffixBlock_none]
  | dot =>
    simp only [DateStyle.write2, DateStyle.sep, List.append_assoc, List.cons_append]
    simp [dateDirs, (hdo _).1 (by decide), (hdo _).2 '/' _ (by decide) (by decide), r4, old, suffixBlock_none]
  | dash =>
    simp only [DateStyle.write2, DateStyle.sep, List.append_assoc, List.cons_append]
    have hi : suffixBlock (runDirs isoDirs (digits2 d.day ++ '-' :: (digits2 d.month ++ '-' :: (digits2 (d.year % 100) ++
        ts.write c))) {}) = none ∨ suffixBlock (runDirs isoDirs (digits2 d.day ++ '-' :: (digits2 d.month ++ '-' ::
          (digits2 (d.year % 100) ++ ts.write c))) {}) = some (c.millis : Int) := by
      rw [run_iso_dash hd]
      rcases run_day_digits2 (d.year % 100) (ts.write c) { year := d.day, month := d.month } with h | ⟨k, t', h⟩ | ⟨k, h⟩
      · rw [h]; left; rfl
      · rw [h]; left; exact suffixBlock_digit _ (afterDigits_time hf).1
      · rw [h]; right
        have hk : k ≤ 31 := day_le h
        exact old_time hc hf h0 (y := d.day) (m := d.month) (d := k) (by omega) (by omega)
    rcases hi with hi | hi
    · simp [dateDirs, hi, (hda _).2 '/' _ (by decide) (by decide), (hda _).2 '.' _ (by decide) (by decide), r4, old,
        suffixBlock_none]
    · simp [dateDirs, hi]

/-- A time alone. -/
theorem clock_value {b : Bool} {c : Clock} (hc : c.Real) (hs : b = false → c.second = 0) (h0 : c.millis ≠ 0) :
    mfElem arrowStrptime (defaultFormats timeFormatsArrow) (some (c.write b)) = c.millis := by
  have hw : ∃ r, c.write b = digits2 c.hour ++ ':' :: r := by cases b <;> simp [Clock.write]
  obtain ⟨r, hr⟩ := hw
  have h := run_other_sep c.hour (c := ':') (by decide) r
  rw [← hr] at h
  have h1 := h.1 (by decide)
  have h2 := fun c' y => h.2 c' y
  have hval : ∀ t : Tm, t = { hour := c.hour, minute := c.minute, second := c.second } →
      timeOfDay t.millis = c.millis := by
    rintro t rfl
    have hk : daysFromCivil 1900 1 1 < 0 := by decide
    have := clock_lt hc
    rw [show (({ hour := c.hour, minute := c.minute, second := c.second } : Tm).millis) =
      daysFromCivil 1900 1 1 * 86400000 + (c.millis : Int) by simp [Tm.millis, Clock.millis]]
    exact timeOfDay_old hk (by omega) (by omega)
  have e1 := h2 '/' .year4 (by decide) (by decide)
  have e2 := h2 '/' .year2 (by decide) (by decide)
  have e3 := h2 '.' .year4 (by decide) (by decide)
  have e4 := h2 '.' .year2 (by decide) (by decide)
  have e5 := h2 '-' .year4 (by decide) (by decide)
  have e6 := h2 '-' .year2 (by decide) (by decide)
  rw [mfElem_default]
  cases b with
  | true =>
    have l := run_hms hc {} []
    rw [List.append_nil] at l
    simp [dateDirs, useful, h1, e1, e2, e3, e4, e5, e6, suffixBlock_none, l, usefulEnd, hval _ rfl, h0]
  | false =>
    have l := run_hm hc {} []
    rw [List.append_nil] at l
    have hv := hval { hour := c.hour, minute := c.minute } (by rw [hs rfl])
    simp [dateDirs, useful, h1, e1, e2, e3, e4, e5, e6, suffixBlock_none, l, run_hms_short hc, usefulEnd, hv, h0]

end Rxls
