import Verif.Lemmas.ArrowRender
import Verif.Lemmas.DateRead
import Verif.Props.Chunk

/-!
# C98: the text of a moment

Moments in a column that becomes a column of text.
-/

namespace Rxls

theorem padDigits_two (n : Nat) : padDigits 2 n = digits2 n := by
  simp [padDigits, digits2, digitChar]

theorem padDigits_three (n : Nat) : padDigits 3 n = digits3 n := by
  simp [padDigits, digits3, digitChar, Nat.div_div_eq_div_mul]

theorem padDigits_four (n : Nat) : padDigits 4 n = digits4 n := by
  simp [padDigits, digits4, digitChar, Nat.div_div_eq_div_mul]

theorem arrowRenderTs_eq {v : Int} {d : Date} {c : Clock} {ms : Nat} (h : IsMoment v d c ms) :
    arrowRenderTs v = momentText d c ms := by
  obtain ⟨hd, ⟨c1, c2, c3⟩, hms, k, hk, rfl⟩ := h
  obtain ⟨y, m, dd⟩ := d
  have e := civilFromDays_eq hd
  have e2 := daysFromCivil_eq hd hk
  simp only at e2
  rw [e2] at e
  unfold Clock.millis
  have h1 : (k * 86400000 + (((c.hour * 3600 + c.minute * 60 + c.second) * 1000 : Nat) : Int) + ms) / 86400000 = k := by
    omega
  have h2 : ((k * 86400000 + (((c.hour * 3600 + c.minute * 60 + c.second) * 1000 : Nat) : Int) + ms) % 86400000).toNat =
      (c.hour * 3600 + c.minute * 60 + c.second) * 1000 + ms := by omega
  unfold arrowRenderTs
  simp only [h1, h2, e, Int.toNat_natCast]
  rw [show ((c.hour * 3600 + c.minute * 60 + c.second) * 1000 + ms) / 3600000 = c.hour by omega,
    show ((c.hour * 3600 + c.minute * 60 + c.second) * 1000 + ms) / 60000 % 60 = c.minute by omega,
    show ((c.hour * 3600 + c.minute * 60 + c.second) * 1000 + ms) / 1000 % 60 = c.second by omega,
    show ((c.hour * 3600 + c.minute * 60 + c.second) * 1000 + ms) % 1000 = ms by omega]
  simp only [padDigits_two, padDigits_three, padDigits_four, momentText, DateStyle.write, Clock.write, if_true,
    List.append_assoc, List.cons_append]

theorem isMoment_exists {v : Int} (h1 : -25567 * 86400000 ≤ v) (h2 : v < 2932897 * 86400000) :
    ∃ d c ms, IsMoment v d c ms ∧ d.year < 10000 := by
  have hr0 : (⟨1900, 1, 1⟩ : Date).Real := by simp [Date.Real, daysInMonth]
  have hre : epoch1970.Real := by simp [Date.Real, daysInMonth, epoch1970]
  obtain ⟨k, t, hv, ht⟩ : ∃ (k : Int) (t : Nat), v = k * 86400000 + t ∧ t < 86400000 :=
    ⟨v / 86400000, (v % 86400000).toNat, by omega, by omega⟩
  have hday : ∃ d : Date, d.Real ∧ DaysFromEpoch d k := by
    by_cases h0 : 0 ≤ k
    · exact ⟨nextDay^[k.toNat] epoch1970, (iterate_real hre _).1, by rw [DaysFromEpoch, if_pos h0]⟩
    · refine ⟨nextDay^[(k + 25567).toNat] ⟨1900, 1, 1⟩, (iterate_real hr0 _).1, ?_⟩
      rw [DaysFromEpoch, if_neg h0, ← Function.iterate_add_apply,
        show (-k).toNat + (k + 25567).toNat = 25567 by omega]
      exact steps_1900_01_01
  obtain ⟨d, hd, hk⟩ := hday
  refine ⟨d, ⟨t / 3600000, t / 60000 % 60, t / 1000 % 60⟩, t % 1000,
    ⟨hd, ⟨by simp only; omega, by simp only; omega, by simp only; omega⟩, by omega, k, hk, ?_⟩, ?_⟩
  · rw [hv]; simp only [Clock.millis]; omega
  · have e := daysFromCivil_eq hd hk
    obtain ⟨q1, q2, q3, q4⟩ := hd
    by_contra hy
    unfold daysFromCivil at e
    simp only at e
    split at e <;> omega

/-- C98, the text: a moment from 1900 to 9999, as Excel has them, is written as its date, a space, and its time to the
millisecond. -/
theorem C98_text {v : Int} (h1 : -25567 * 86400000 ≤ v) (h2 : v < 2932897 * 86400000) :
    ∃ d c ms, IsMoment v d c ms ∧ d.year < 10000 ∧ arrowRenderTs v = momentText d c ms := by
  obtain ⟨d, c, ms, h, hy⟩ := isMoment_exists h1 h2
  exact ⟨d, c, ms, h, hy, arrowRenderTs_eq h⟩

theorem digits2_inj {a b : Nat} (ha : a < 100) (hb : b < 100) (h : digits2 a = digits2 b) : a = b := by
  simp only [digits2, List.cons.injEq, and_true] at h
  have h1 := congrArg decVal h.1
  have h2 := congrArg decVal h.2
  simp only [digitChar_val] at h1 h2
  omega

theorem digits3_inj {a b : Nat} (ha : a < 1000) (hb : b < 1000) (h : digits3 a = digits3 b) : a = b := by
  simp only [digits3, List.cons.injEq, and_true] at h
  have h1 := congrArg decVal h.1
  have h2 := congrArg decVal h.2.1
  have h3 := congrArg decVal h.2.2
  simp only [digitChar_val] at h1 h2 h3
  omega

theorem digits4_inj {a b : Nat} (ha : a < 10000) (hb : b < 10000) (h : digits4 a = digits4 b) : a = b := by
  simp only [digits4, List.cons.injEq, and_true] at h
  have h1 := congrArg decVal h.1
  have h2 := congrArg decVal h.2.1
  have h3 := congrArg decVal h.2.2.1
  have h4 := congrArg decVal h.2.2.2
  simp only [digitChar_val] at h1 h2 h3 h4
  omega

/-- C98, no two moments share a text. -/
theorem C98_injective {v w : Int} (hv1 : -25567 * 86400000 ≤ v) (hv2 : v < 2932897 * 86400000)
    (hw1 : -25567 * 86400000 ≤ w) (hw2 : w < 2932897 * 86400000) (h : arrowRenderTs v = arrowRenderTs w) : v = w := by
  obtain ⟨d, c, ms, ⟨⟨_, m1, _, m2⟩, ⟨c1, c2, c3⟩, hms, k, hk, rfl⟩, hy, e⟩ := C98_text hv1 hv2
  obtain ⟨d', c', ms', ⟨⟨_, m1', _, m2'⟩, ⟨c1', c2', c3'⟩, hms', k', hk', rfl⟩, hy', e'⟩ := C98_text hw1 hw2
  rw [e, e'] at h
  have n1 := daysInMonth_le d.year d.month
  have n2 := daysInMonth_le d'.year d'.month
  simp only [momentText, DateStyle.write, Clock.write, if_true, List.append_assoc, List.cons_append] at h
  obtain ⟨g1, h⟩ := List.append_inj h rfl
  obtain ⟨g2, h⟩ := List.append_inj (List.cons.inj h).2 rfl
  obtain ⟨g3, h⟩ := List.append_inj (List.cons.inj h).2 rfl
  obtain ⟨g4, h⟩ := List.append_inj (List.cons.inj h).2 rfl
  obtain ⟨g5, h⟩ := List.append_inj (List.cons.inj h).2 rfl
  obtain ⟨g6, h⟩ := List.append_inj (List.cons.inj h).2 rfl
  have g7 := digits3_inj hms hms' (List.cons.inj h).2
  have g1 := digits4_inj hy hy' g1
  have g2 := digits2_inj (by omega) (by omega) g2
  have g3 := digits2_inj (by omega) (by omega) g3
  have g4 := digits2_inj (by omega) (by omega) g4
  have g5 := digits2_inj (by omega) (by omega) g5
  have g6 := digits2_inj (by omega) (by omega) g6
  have hdd : d = d' := by
    have eta : ∀ x : Date, x = ⟨x.year, x.month, x.day⟩ := fun _ => rfl
    rw [eta d, eta d', g1, g2, g3]
  subst hdd
  have : k = k' := by
    rw [← daysFromCivil_eq ⟨by assumption, m1, by assumption, m2⟩ hk,
      ← daysFromCivil_eq ⟨by assumption, m1, by assumption, m2⟩ hk']
  rw [this, g7, Clock.millis, Clock.millis, g4, g5, g6]

/-- C98, in a column: where dates stand beside texts or numbers and dates are not resolved, every moment of the column is
written like this; the other cells keep their text. -/
theorem C98_column (env : Env) (henv : env.renderTs = arrowRenderTs) (o : ConcatOpts) (cs : List Chunk) (rs : Runs)
    (h : HoldsRuns cs rs) (h1 : ∃ r ∈ rs, r.1 = .temp) (h2 : ∃ r ∈ rs, r.1 = .nums ∨ r.1 = .utf8) (ho : o.confDt = false)
    {i : Nat} {v : Int} {d : Date} {c : Clock} {ms : Nat} (hi : rs.cells[i]? = some (some (.ts v))) (hm : IsMoment v d c ms) :
    ∃ arr, (concatenate env o cs 0 0 none).2 = .ok arr ∧ arr.dtype = .utf8 ∧
      arr.vals[i]? = some (some (.str (momentText d c ms))) := by
  refine ⟨_, C31_text_partial env o cs rs h (Or.inl ⟨h1, h2, ho⟩), rfl, ?_⟩
  rw [List.getElem?_map, hi]
  simp [cellText, henv, arrowRenderTs_eq hm]

/-- A moment and a text. -/
example : (concatenate { demoEnv with renderTs := arrowRenderTs } ⟨false, false, [], 6⟩
    [exMs [1706788800000], exShared [0] [some ['D', '1']]] 0 0 none).2 =
      .ok ⟨.utf8, [some (.str "2024-02-01 12:00:00.000".toList), some (.str ['D', '1'])]⟩ := by
  decide +kernel

/-- Serial 45323.5 of 2024-02-01, noon. -/
example : arrowRenderTs 1706788800000 = "2024-02-01 12:00:00.000".toList ∧
    arrowRenderTs (-2208988800000) = "1900-01-01 00:00:00.000".toList ∧
    arrowRenderTs 253402300799999 = "9999-12-31 23:59:59.999".toList ∧
    arrowRenderTs (-1) = "1969-12-31 23:59:59.999".toList ∧
    arrowRenderTs 951782400000 = "2000-02-29 00:00:00.000".toList := by
  decide +kernel

/-! ## Reading the text again -/

theorem getDigits_count (hi : Nat) (n v : Nat) (s : Str) : (getDigits hi n v s).2.count '.' = s.count '.' := by
  induction n generalizing v s with
  | zero => rfl
  | succ n ih =>
    cases s with
    | nil => rfl
    | cons c s =>
      unfold getDigits
      split
      · rename_i h
        rw [ih, List.count_cons_of_ne]
        rintro rfl
        exact absurd h.1 (by decide)
      · rfl

theorem dropSpace_count (s : Str) : (s.dropWhile cSpace).count '.' = s.count '.' := by
  induction s with
  | nil => rfl
  | cons c s ih =>
    rw [List.dropWhile_cons]
    split
    · rename_i h
      rw [ih, List.count_cons_of_ne]
      rintro rfl
      exact absurd h (by decide)
    · rfl

theorem getNumber_count {lo hi n v : Nat} {s r : Str} (h : getNumber lo hi n s = some (v, r)) : r.count '.' = s.count '.' := by
  unfold getNumber at h
  rw [← dropSpace_count s]
  split at h
  · cases h
  · rename_i c t ht
    split at h
    · rename_i hc
      simp only at h
      split at h
      · injection h with h
        have := getDigits_count hi (n - 1) (decVal c) t
        rw [h] at this
        simp only at this
        rw [ht, this, List.count_cons_of_ne]
        rintro rfl
        exact absurd hc (by decide)
      · cases h
    · cases h

/-- The points a conversion consumes. -/
def Dir.points : Dir → Nat
  | .lit '.' => 1
  | _ => 0

theorem Dir.run_count {d : Dir} {s r : Str} {t u : Tm} (h : d.run s t = some (r, u)) :
    s.count '.' = d.points + r.count '.' := by
  have num : ∀ {lo hi n} {g : Nat × Str → Tm}, (getNumber lo hi n s).map (fun p => (p.2, g p)) = some (r, u) →
      s.count '.' = r.count '.' := by
    intro lo hi n g h
    cases e : getNumber lo hi n s with
    | none => rw [e] at h; cases h
    | some p =>
      rw [e] at h
      obtain ⟨v, r'⟩ := p
      simp only [Option.map_some, Option.some.injEq, Prod.mk.injEq] at h
      rw [← h.1, getNumber_count e]
  cases d with
  | lit c =>
    cases s with
    | nil => cases h
    | cons x s =>
      simp only [Dir.run] at h
      split at h
      · rename_i hx
        injection h with h
        injection h with h _
        subst hx h
        by_cases e : x = '.'
        · subst e; simp [Dir.points, Nat.add_comm]
        · rw [List.count_cons_of_ne e]
          have : (Dir.lit x).points = 0 := by
            unfold Dir.points
            split
            · rename_i q; injection q with q; exact absurd q e
            · rfl
          omega
      · cases h
  | space =>
    simp only [Dir.run, Option.some.injEq, Prod.mk.injEq] at h
    rw [← h.1, dropSpace_count]
    simp [Dir.points]
  | _ => rw [show Dir.points _ = 0 from rfl, Nat.zero_add]; exact num h

theorem runDirs_count {ds : List Dir} {s r : Str} {t u : Tm} (h : runDirs ds s t = some (r, u)) :
    s.count '.' = (ds.map Dir.points).sum + r.count '.' := by
  induction ds generalizing s t with
  | nil =>
    simp only [runDirs, Option.some.injEq, Prod.mk.injEq] at h
    simp [h.1]
  | cons d ds ih =>
    unfold runDirs at h
    split at h
    · cases h
    · rename_i s' t' e
      rw [Dir.run_count e, ih h, List.map_cons, List.sum_cons]
      omega

/-- None of the default formats has exactly one point. -/
theorem formats_points : (defaultFormats timeFormatsArrow).all (fun f =>
    match fmtDirs f with
    | none => true
    | some ds => (ds.map Dir.points).sum != 1) = true := by
  decide +kernel

/-- A text with one point is read by none of the default formats. -/
theorem one_point {s : Str} (h : s.count '.' = 1) : mfElem arrowStrptime (defaultFormats timeFormatsArrow) (some s) = 0 := by
  have hf : ∀ f ∈ defaultFormats timeFormatsArrow, strptimeElem arrowStrptime f (some s) = 0 := by
    intro f hf
    have hp := List.all_eq_true.mp formats_points f hf
    have : arrowStrptime f (some s) = none := by
      unfold arrowStrptime
      cases e : fmtDirs f with
      | none => rfl
      | some ds =>
        rw [e] at hp
        simp only [bne_iff_ne, ne_eq] at hp
        simp only
        split
        · rename_i u e2
          have := runDirs_count e2
          rw [h, List.count_nil] at this
          omega
        · rfl
    simp [strptimeElem, this]
  unfold mfElem
  generalize defaultFormats timeFormatsArrow = fs at hf
  induction fs with
  | nil => rfl
  | cons f fs ih =>
    rw [List.foldl_cons, mfStep, if_pos rfl, hf f List.mem_cons_self]
    exact ih fun g hg => hf g (List.mem_cons_of_mem _ hg)

theorem digitChar_point (n : Nat) : (digitChar n == '.') = false := by
  have := digitChar_ne n (c := '.') (by decide)
  simpa using this

/-- C98 is violated for reading the text again: without polars the package cannot read a single one of the texts it
writes for moments; a column that has one of them is not a column of dates for `mf_strptime`. -/
theorem C98_reread_finding {v : Int} (h1 : -25567 * 86400000 ≤ v) (h2 : v < 2932897 * 86400000) (arr : List Str)
    (h : arrowRenderTs v ∈ arr) : parseTexts arr = .error .arrowInvalid := by
  obtain ⟨d, c, ms, _, _, e⟩ := C98_text h1 h2
  rw [parseTexts_eq, if_pos]
  refine List.any_eq_true.mpr ⟨0, List.mem_map.mpr ⟨_, h, ?_⟩, rfl⟩
  apply one_point
  rw [e]
  simp [momentText, DateStyle.write, Clock.write, digits2, digits3, digits4, List.count_cons, digitChar_point]

/-- Up to the seconds the same text is read; with them and the thousandths it is not. -/
example : parseTexts ["2024-02-01 12:00:00".toList] = .ok [1706788800000] ∧
    parseTexts ["2024-02-01 12:00:00.000".toList] = .error .arrowInvalid := by
  decide +kernel

end Rxls
