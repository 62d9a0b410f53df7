import Verif.Lemmas.DateRead

namespace Rxls

/-- A date that counts as nothing, and midnight written after it. -/
theorem suffixBlock_zero {ts : TimeStyle} (hf : ts.Fits ⟨0, 0, 0⟩) {t : Tm} (h0 : t.AtMidnight) (hz : timeOfDay t.millis = 0) :
    suffixBlock (some (ts.write ⟨0, 0, 0⟩, t)) = none := by
  obtain ⟨a0, b0, c0⟩ := h0
  have ht : ∀ u : Tm, u = { t with hour := 0, minute := 0, second := 0 } → timeOfDay u.millis = 0 := by
    rintro u rfl
    have e : ({ t with hour := 0, minute := 0, second := 0 } : Tm) = t := by
      obtain ⟨y, m, d, h, mi, s⟩ := t
      simp only at a0 b0 c0
      subst a0 b0 c0
      rfl
    rw [e, hz]
  have ht1 : timeOfDay ({ t with hour := 0, minute := 0 } : Tm).millis = 0 := ht _ (by rw [← c0])
  have ht2 := ht _ rfl
  cases ts with
  | nothing => rw [TimeStyle.write, suffixBlock_nothing, if_pos hz]
  | after sep b =>
    obtain ⟨hsep, -⟩ := hf
    have run : ∀ s : Str, ∀ q : List (Option (Str × Tm)), suffixDirs.map (fun ds => runDirs ds s t) = q →
        (∀ p ∈ q, usefulEnd p = none) → suffixBlock (some (s, t)) = none := by
      intro s q e hq
      unfold suffixBlock
      rw [List.findSome?_eq_none_iff]
      intro ds hds
      exact hq _ (e ▸ List.mem_map_of_mem hds)
    rcases hsep with rfl | rfl <;> cases b
    · refine run _ [none, none, some ([], { t with hour := 0, minute := 0 }), none, some ([' ', '0', '0', ':', '0', '0'], t)] rfl ?_
      simp [usefulEnd, ht1]
    · refine run _ [some ([], { t with hour := 0, minute := 0, second := 0 }), none, some ([':', '0', '0'], { t with hour := 0, minute := 0 }), none,
        some ([' ', '0', '0', ':', '0', '0', ':', '0', '0'], t)] rfl ?_
      simp [usefulEnd, ht2]
    · refine run _ [none, none, none, some ([], { t with hour := 0, minute := 0 }), some (['T', '0', '0', ':', '0', '0'], t)] rfl ?_
      simp [usefulEnd, ht1]
    · refine run _ [none, some ([], { t with hour := 0, minute := 0, second := 0 }), none, some ([':', '0', '0'], { t with hour := 0, minute := 0 }),
        some (['T', '0', '0', ':', '0', '0', ':', '0', '0'], t)] rfl ?_
      simp [usefulEnd, ht2]

theorem millis_zero {c : Clock} (h : c.millis = 0) : c = ⟨0, 0, 0⟩ := by
  obtain ⟨a, b, d⟩ := c
  simp only [Clock.millis] at h
  simp only [Clock.mk.injEq]
  omega

/-- Nothing matches. -/
theorem mfElem_zero {s : Str} (h : ∀ dd ∈ dateDirs, suffixBlock (runDirs dd s {}) = none) (ha : afterDigits s ≠ some ':')
    (hs : ∀ c u, s = c :: u → cSpace c = false) : mfElem arrowStrptime (defaultFormats timeFormatsArrow) (some s) = 0 := by
  have h1 : (dateDirs.findSome? fun dd => suffixBlock (runDirs dd s {})) = none := List.findSome?_eq_none_iff.mpr h
  have h2 : dateDirs.findSome? (useful s) = none := by
    rw [List.findSome?_eq_none_iff]
    intro dd hdd
    have := h dd hdd
    unfold suffixBlock at this
    rw [List.findSome?_eq_none_iff] at this
    have := this [] (by simp [suffixDirs])
    unfold useful
    cases hr : runDirs dd s {} with
    | none => rfl
    | some p =>
      rw [hr] at this
      exact this
  have h3 : [hmsDirs, hmDirs].findSome? (useful s) = none := by
    have f : ∀ ds, runDirs (.hour :: .lit ':' :: ds) s {} = none := fun ds => run_num_lit_fail rfl (by decide) ds _ hs ha
    have e1 : runDirs hmsDirs s {} = none := f _
    have e2 : runDirs hmDirs s {} = none := f _
    simp [useful, e1, e2, usefulEnd]
  rw [mfElem_default, h1, h2, h3]
  rfl

theorem timeOfDay_day {k : Int} (h : k ≤ 0) : timeOfDay (k * 86400000) = 0 := by
  unfold timeOfDay
  split <;> omega

theorem run_year2_digits4 (n : Nat) (r : Str) (t : Tm) : ∃ t', runDirs [.year2] (digits4 n ++ r) t =
    some (digitChar (n / 10) :: digitChar n :: r, t') := by
  have h1 : decVal (digitChar (n / 1000)) * 10 ≤ 99 := by rw [digitChar_val]; omega
  have h2 : decVal (digitChar (n / 1000)) * 10 + decVal (digitChar (n / 100)) ≤ 99 := by
    rw [digitChar_val, digitChar_val]; omega
  simp only [runDirs, Dir.run, getNumber, digits4, List.cons_append, List.nil_append, List.dropWhile_cons, digitChar_space,
    digitChar_isDigit, if_true, getDigits, Bool.false_eq_true, if_false, true_and, Nat.add_one_sub_one, h1, h2, Nat.zero_le]
  exact ⟨_, rfl⟩

/-- A date that begins with the year: day first fails. -/
theorem run_dmy_digits4 (n : Nat) (c : Char) (hc : c.isDigit = false) (y : Dir) (r : Str) :
    runDirs (dmyDirs c y) (digits4 n ++ r) {} = none := by
  rw [show dmyDirs c y = [.day] ++ [.lit c, .month, .lit c, y] from rfl, runDirs_append]
  rcases run_day_digits4 n r {} with h | ⟨k, r', t', h, -⟩
  · rw [h]
  · rw [h]
    have := digitChar_ne k hc
    simp [runDirs, Dir.run, this]

/-- A date and midnight up to 1970-01-01 00:00. -/
theorem full_zero {st : DateStyle} {ts : TimeStyle} {d : Date} (hd : d.Real) (hy : d.year < 10000) (hf : ts.Fits ⟨0, 0, 0⟩)
    (hv : daysFromCivil d.year d.month d.day ≤ 0) :
    mfElem arrowStrptime (defaultFormats timeFormatsArrow) (some (st.write d ++ ts.write ⟨0, 0, 0⟩)) = 0 := by
  have hb := real_bounds hd
  have key : suffixBlock (some (ts.write ⟨0, 0, 0⟩, { year := d.year, month := d.month, day := d.day })) = none :=
    suffixBlock_zero hf ⟨rfl, rfl, rfl⟩ (by rw [millis_date _ _ _ hb.2.2.1]; exact timeOfDay_day hv)
  have ht := afterDigits_time hf
  have hsl := fun r => run_other_sep d.day (c := '/') (by decide) r
  have hdo := fun r => run_other_sep d.day (c := '.') (by decide) r
  have hda := fun r => run_other_sep d.day (c := '-') (by decide) r
  have y2 : ∀ c, suffixBlock (runDirs (dmyDirs c .year2) (digits2 d.day ++ c :: (digits2 d.month ++ c :: (digits4 d.year ++
      ts.write ⟨0, 0, 0⟩))) {}) = none := by
    intro c
    rw [run_dm hd]
    obtain ⟨t', h⟩ := run_year2_digits4 d.year (ts.write ⟨0, 0, 0⟩) { month := d.month, day := d.day }
    rw [h]
    exact suffixBlock_digit _ (by rw [afterDigits_digit]; exact ht.1)
  have ha : ∀ c r, c.isDigit = false → c ≠ ':' → afterDigits (digits2 d.day ++ c :: r) ≠ some ':' := by
    intro c r h1 h2
    rw [afterDigits_digits2, afterDigits_other h1]
    simpa using h2
  cases st with
  | iso =>
    refine mfElem_zero ?_ ?_ ?_
    · have e : DateStyle.iso.write d ++ ts.write ⟨0, 0, 0⟩ = digits4 d.year ++ ('-' :: digits2 d.month ++ '-' :: digits2 d.day ++ ts.write ⟨0, 0, 0⟩) := by
        simp [DateStyle.write]
      have r := fun c hc y => run_dmy_digits4 d.year c hc y ('-' :: digits2 d.month ++ '-' :: digits2 d.day ++ ts.write ⟨0, 0, 0⟩)
      rw [← e] at r
      simp [dateDirs, run_iso hd hy, key, r, suffixBlock_none]
    · simp only [DateStyle.write, List.append_assoc, List.cons_append]
      rw [afterDigits_digits4, afterDigits_other (by decide)]
      decide
    · intro c u e
      simp only [DateStyle.write, digits4, List.cons_append] at e
      injection e with e1 _
      rw [← e1]
      exact digitChar_space _
  | slash =>
    simp only [DateStyle.write, DateStyle.sep, List.append_assoc, List.cons_append]
    refine mfElem_zero ?_ (ha _ _ (by decide) (by decide)) (digits2_head _ _)
    simp [dateDirs, (hsl _).1 (by decide), (hsl _).2 '.' _ (by decide) (by decide), (hsl _).2 '-' _ (by decide) (by decide),
      run_dmy hd hy, key, y2, suffixBlock_none]
  | dot =>
    simp only [DateStyle.write, DateStyle.sep, List.append_assoc, List.cons_append]
    refine mfElem_zero ?_ (ha _ _ (by decide) (by decide)) (digits2_head _ _)
    simp [dateDirs, (hdo _).1 (by decide), (hdo _).2 '/' _ (by decide) (by decide), (hdo _).2 '-' _ (by decide) (by decide),
      run_dmy hd hy, key, y2, suffixBlock_none]
  | dash =>
    simp only [DateStyle.write, DateStyle.sep, List.append_assoc, List.cons_append]
    refine mfElem_zero ?_ (ha _ _ (by decide) (by decide)) (digits2_head _ _)
    have hi : suffixBlock (runDirs isoDirs (digits2 d.day ++ '-' :: (digits2 d.month ++ '-' :: (digits4 d.year ++
        ts.write ⟨0, 0, 0⟩))) {}) = none := by
      rw [run_iso_dash hd]
      rcases run_day_digits4 d.year (ts.write ⟨0, 0, 0⟩) { year := d.day, month := d.month } with h | ⟨k, r', t', h, ha⟩
      · rw [h]; rfl
      · rw [h]; exact suffixBlock_digit _ (by rw [ha]; exact ht.1)
    simp [dateDirs, hi, (hda _).2 '/' _ (by decide) (by decide), (hda _).2 '.' _ (by decide) (by decide), run_dmy hd hy, key, y2,
      suffixBlock_none]

/-- A date with two digits for the year and midnight. -/
theorem short_midnight {st : DateStyle} (hst : st ≠ .iso) {ts : TimeStyle} {d : Date} (hd : d.Real) (hy1 : 1969 ≤ d.year)
    (hy2 : d.year < 2069) (hf : ts.Fits ⟨0, 0, 0⟩) :
    mfElem arrowStrptime (defaultFormats timeFormatsArrow) (some (st.write2 d ++ ts.write ⟨0, 0, 0⟩)) =
      timeOfDay (daysFromCivil d.year d.month d.day * 86400000) := by
  have hb := real_bounds hd
  have hn : d.year % 100 < 100 := Nat.mod_lt _ (by norm_num)
  have ht := afterDigits_time hf
  have hyear : (if 69 ≤ d.year % 100 then 1900 + d.year % 100 else 2000 + d.year % 100) = d.year := by split <;> omega
  have oldz : ∀ {y m d : Nat}, y < 1970 → 1 ≤ m → m ≤ 12 → d ≤ 31 →
      suffixBlock (some (ts.write ⟨0, 0, 0⟩, { year := y, month := m, day := d })) = none := by
    intro y m d h1 h2 h3 h4
    refine suffixBlock_zero hf ⟨rfl, rfl, rfl⟩ ?_
    rw [show ({ year := y, month := m, day := d } : Tm).millis = daysFromCivil y m (max d 1) * 86400000 by simp [Tm.millis]]
    exact timeOfDay_day (le_of_lt (daysFromCivil_old h1 h3 (by omega) h2 (by omega)))
  have old : suffixBlock (some (ts.write ⟨0, 0, 0⟩, { year := d.year % 100, month := d.month, day := d.day })) = none :=
    oldz (by omega) hb.1 hb.2.1 hb.2.2.2
  have r4 := fun c => run_dmy2_as4 hd c hn (ts.write ⟨0, 0, 0⟩) ht.2
  have r2 := fun c => run_dmy2 hd c hn (ts.write ⟨0, 0, 0⟩)
  rw [hyear] at r2
  have hsl := fun r => run_other_sep d.day (c := '/') (by decide) r
  have hdo := fun r => run_other_sep d.day (c := '.') (by decide) r
  have hda := fun r => run_other_sep d.day (c := '-') (by decide) r
  have hi : suffixBlock (runDirs isoDirs (digits2 d.day ++ '-' :: (digits2 d.month ++ '-' :: (digits2 (d.year % 100) ++
      ts.write ⟨0, 0, 0⟩))) {}) = none := by
    rw [run_iso_dash hd]
    rcases run_day_digits2 (d.year % 100) (ts.write ⟨0, 0, 0⟩) { year := d.day, month := d.month } with h | ⟨k, t', h⟩ | ⟨k, h⟩
    · rw [h]; rfl
    · rw [h]; exact suffixBlock_digit _ ht.1
    · rw [h]
      exact oldz (y := d.day) (m := d.month) (d := k) (by omega) hb.1 hb.2.1 (day_le h)
  have ha : ∀ c r, c.isDigit = false → c ≠ ':' → afterDigits (digits2 d.day ++ c :: r) ≠ some ':' := by
    intro c r h1 h2
    rw [afterDigits_digits2, afterDigits_other h1]
    simpa using h2
  by_cases hz : timeOfDay (daysFromCivil d.year d.month d.day * 86400000) = 0
  · have key : suffixBlock (some (ts.write ⟨0, 0, 0⟩, { year := d.year, month := d.month, day := d.day })) = none :=
      suffixBlock_zero hf ⟨rfl, rfl, rfl⟩ (by rw [millis_date _ _ _ hb.2.2.1]; exact hz)
    rw [hz]
    cases st with
    | iso => exact absurd rfl hst
    | slash =>
      simp only [DateStyle.write2, DateStyle.sep, List.append_assoc, List.cons_append]
      refine mfElem_zero ?_ (ha _ _ (by decide) (by decide)) (digits2_head _ _)
      simp [dateDirs, (hsl _).1 (by decide), (hsl _).2 '.' _ (by decide) (by decide), (hsl _).2 '-' _ (by decide) (by decide),
        r4, r2, key, old, suffixBlock_none]
    | dot =>
      simp only [DateStyle.write2, DateStyle.sep, List.append_assoc, List.cons_append]
      refine mfElem_zero ?_ (ha _ _ (by decide) (by decide)) (digits2_head _ _)
      simp [dateDirs, (hdo _).1 (by decide), (hdo _).2 '/' _ (by decide) (by decide), (hdo _).2 '-' _ (by decide) (by decide),
        r4, r2, key, old, suffixBlock_none]
    | dash =>
      simp only [DateStyle.write2, DateStyle.sep, List.append_assoc, List.cons_append]
      refine mfElem_zero ?_ (ha _ _ (by decide) (by decide)) (digits2_head _ _)
      simp [dateDirs, hi, (hda _).2 '/' _ (by decide) (by decide), (hda _).2 '.' _ (by decide) (by decide),
        r4, r2, key, old, suffixBlock_none]
  · have hc0 : ((Clock.millis ⟨0, 0, 0⟩ : Nat) : Int) = 0 := by simp [Clock.millis]
    have key : suffixBlock (some (ts.write ⟨0, 0, 0⟩, { year := d.year, month := d.month, day := d.day })) =
        some (timeOfDay (daysFromCivil d.year d.month d.day * 86400000)) :=
      suffixBlock_write hf (by simp [Clock.Real]) ⟨rfl, rfl, rfl⟩ (by rw [millis_date _ _ _ hb.2.2.1, hc0, add_zero]) hz
    rw [mfElem_default]
    cases st with
    | iso => exact absurd rfl hst
    | slash =>
      simp only [DateStyle.write2, DateStyle.sep, List.append_assoc, List.cons_append]
      simp [dateDirs, (hsl _).1 (by decide), r4, r2, key, old, suffixBlock_none]
    | dot =>
      simp only [DateStyle.write2, DateStyle.sep, List.append_assoc, List.cons_append]
      simp [dateDirs, (hdo _).1 (by decide), (hdo _).2 '/' _ (by decide) (by decide), r4, r2, key, old, suffixBlock_none]
    | dash =>
      simp only [DateStyle.write2, DateStyle.sep, List.append_assoc, List.cons_append]
      simp [dateDirs, hi, (hda _).2 '/' _ (by decide) (by decide), (hda _).2 '.' _ (by decide) (by decide),
        r4, r2, key, old, suffixBlock_none]

/-- Midnight alone. -/
theorem clock_zero (b : Bool) : mfElem arrowStrptime (defaultFormats timeFormatsArrow) (some ((⟨0, 0, 0⟩ : Clock).write b)) = 0 := by
  cases b <;> decide +kernel

end Rxls
