import Verif.Lemmas.PolarsRead
import Verif.Props.MomentText

/-!
# C101: texts with thousandths of a second, or with AM and PM

What `mf_strptime` makes of a column of texts when polars is installed.
-/

namespace Rxls

/-- `mf_strptime(texts)` with polars. -/
def parsePolars (arr : List Str) : Py (List Int) :=
  mfStrptime polarsStrptime (defaultFormats timeFormatsPolars) (arr.map some) [] true

theorem mfStrptime_default (sp : Str → Option Str → Option Int) (F : List Str) (hF : F.isEmpty = false) (arr : List Str) :
    mfStrptime sp F (arr.map some) [] true =
      if (arr.map fun s => mfElem sp F (some s)).any (fun r => decide (r = 0)) then .error .arrowInvalid
      else .ok (arr.map fun s => mfElem sp F (some s)) := by
  have := mfStrptime_eq sp [] (arr.map some) F true (by rintro rfl; cases hF)
  rw [List.map_map, Bool.true_and] at this
  rw [show (fun s => mfElem sp F (some s)) = mfElem sp F ∘ some from rfl, ← this]
  unfold mfStrptime
  rw [hF]
  rfl

theorem parsePolars_eq (arr : List Str) : parsePolars arr =
    if (arr.map fun s => mfElem polarsStrptime (defaultFormats timeFormatsPolars) (some s)).any (fun r => decide (r = 0)) then
      .error .arrowInvalid
    else .ok (arr.map fun s => mfElem polarsStrptime (defaultFormats timeFormatsPolars) (some s)) :=
  mfStrptime_default _ _ (by decide +kernel) arr

theorem clock_digit (b : Bool) (c : Clock) (r : Str) : ∃ n s, c.write b ++ r = digitChar n :: s := by
  cases b
  · exact ⟨_, _, rfl⟩
  · exact ⟨_, _, rfl⟩

theorem precise_elem {s : Str} {v : Int} (h : WritesPrecise s v) :
    mfElem polarsStrptime (defaultFormats timeFormatsPolars) (some s) = timeOfDay v := by
  cases h with
  | plain st ts d c k hd hy hk hc hf =>
    have hD := civilDate_real hd
    rw [daysFromCivil_eq hd hk] at hD
    cases ts with
    | nothing =>
      have hf : c = ⟨0, 0, 0⟩ := hf
      subst hf
      have := date_only_value (st := st) hd hy
      rw [daysFromCivil_eq hd hk] at this
      simpa [TimeStyle.write, Clock.millis] using this
    | after sep b =>
      obtain ⟨hsep, hsec⟩ := hf
      cases b with
      | true =>
        have hX := clock_digit true c []
        rw [List.append_nil] at hX
        exact date_time_value hd hy hsep hX (times_hms hc hD)
      | false =>
        have hX := clock_digit false c []
        rw [List.append_nil] at hX
        exact date_time_value hd hy hsep hX (times_hm hc (hsec rfl) hD)
  | thousandths st sep d c ms k hd hy hk hc hsep hms =>
    have hD := civilDate_real hd
    rw [daysFromCivil_eq hd hk] at hD
    have := date_time_value (st := st) hd hy hsep (clock_digit true c _) (times_thousandths hc hms hD)
    rw [← this, List.append_assoc]
    rfl
  | half st sep b d c k hd hy hk hc hsep hs =>
    have hD := civilDate_real hd
    rw [daysFromCivil_eq hd hk] at hD
    cases b with
    | true => exact date_time_value hd hy hsep ⟨_, _, rfl⟩ (times_hms12 hc hD)
    | false => exact date_time_value hd hy hsep ⟨_, _, rfl⟩ (times_hm12 hc (hs rfl) hD)
  | clock b c hc hs => rw [time_only_value hc hs, timeOfDay_pos (by omega)]

/-- C101, exactly: with polars a column of texts with four-digit years, in any mixture of the styles, with thousandths of
a second or AM and PM, is read as the moments, of which those before 1970 lose the date (the finding of C80); if one comes
to 0 then, the column is not read. -/
theorem C101_exact (l : List (Str × Int)) (h : ∀ p ∈ l, WritesPrecise p.1 p.2) :
    parsePolars (l.map (·.1)) =
      if ∃ p ∈ l, p.2 ≤ 0 ∧ p.2 % 86400000 = 0 then .error .arrowInvalid
      else .ok (l.map fun p => if p.2 < 0 then p.2 % 86400000 else p.2) := by
  have e : ((l.map (·.1)).map fun s => mfElem polarsStrptime (defaultFormats timeFormatsPolars) (some s)) =
      l.map fun p => if p.2 < 0 then p.2 % 86400000 else p.2 := by
    rw [List.map_map]
    exact List.map_congr_left fun p hp => by simp only [Function.comp, precise_elem (h p hp), timeOfDay]
  rw [parsePolars_eq, e]
  have hc : ((l.map fun p => if p.2 < 0 then p.2 % 86400000 else p.2).any (fun r => decide (r = 0)) = true) ↔
      ∃ p ∈ l, p.2 ≤ 0 ∧ p.2 % 86400000 = 0 := by
    simp only [List.any_map, List.any_eq_true, Function.comp, decide_eq_true_eq]
    constructor
    · rintro ⟨p, hp, e⟩
      refine ⟨p, hp, ?_⟩
      split at e <;> omega
    · rintro ⟨p, hp, h1, h2⟩
      refine ⟨p, hp, ?_⟩
      split <;> omega
  by_cases hx : ∃ p ∈ l, p.2 ≤ 0 ∧ p.2 % 86400000 = 0
  · rw [if_pos (hc.2 hx), if_pos hx]
  · rw [if_neg (mt hc.1 hx), if_neg hx]

/-- C101, what holds: moments after 1970-01-01 00:00 are read as they are written.  Missing (the code is wrong there):
moments up to 1970-01-01 00:00. -/
theorem C101_texts_partial (l : List (Str × Int)) (h : ∀ p ∈ l, WritesPrecise p.1 p.2) (hpos : ∀ p ∈ l, 0 < p.2) :
    parsePolars (l.map (·.1)) = .ok (l.map (·.2)) := by
  rw [C101_exact l h, if_neg]
  · congr 1
    exact List.map_congr_left fun p hp => by rw [if_neg (by have := hpos p hp; omega)]
  · rintro ⟨p, hp, h1, -⟩
    have := hpos p hp
    omega

/-- C101, reading again: what the package writes for the moments of a column of text is, with polars, read as these
moments.  (Without polars none of it is: `C98_reread_finding`.) -/
theorem C101_reread (l : List Int) (h : ∀ v ∈ l, 0 < v ∧ v < 2932897 * 86400000) :
    parsePolars (l.map arrowRenderTs) = .ok l := by
  have := C101_texts_partial (l.map fun v => (arrowRenderTs v, v)) ?_ ?_
  · simpa [List.map_map, Function.comp_def] using this
  · intro p hp
    obtain ⟨v, hv, rfl⟩ := List.mem_map.1 hp
    obtain ⟨d, c, ms, ⟨hd, hc, hms, k, hk, e⟩, hy, e2⟩ := C98_text (v := v) (by have := (h v hv).1; omega) (h v hv).2
    simp only
    rw [e2, e]
    exact .thousandths .iso ' ' d c ms k hd hy hk hc (Or.inl rfl) hms
  · intro p hp
    obtain ⟨v, hv, rfl⟩ := List.mem_map.1 hp
    exact (h v hv).1

example : parsePolars ["2024-02-01 10:20:30.125".toList, "01/02/2024 01:20:30 PM".toList, "01.02.2024T12:05 AM".toList,
      "01-02-2024".toList, "10:20".toList] =
    .ok [1706782830125, 1706793630000, 1706745900000, 1706745600000, 37200000] ∧
    parseTexts ["01/02/2024 01:20:30 PM".toList] = .error .arrowInvalid := by decide +kernel

/-! ## A time alone -/

/-- A format without a date leaves the date open. -/
theorem run_no_date {d : CDir} (hd : d ≠ .year4 ∧ d ≠ .year2) {s r : Str} {t u : Cm} (h : d.run s t = some (r, u)) :
    u.year = t.year ∧ u.yearMod = t.yearMod := by
  cases d <;> simp only [ne_eq, not_true, false_and, and_false] at hd <;>
    simp only [CDir.run, Option.map_eq_some_iff, Prod.mk.injEq] at h
  case lit c =>
    cases s with
    | nil => cases h
    | cons x s =>
      simp only [CDir.run] at h
      split at h
      · injection h with h; injection h with _ h; rw [← h]; exact ⟨rfl, rfl⟩
      · cases h
  case space => injection h with h; injection h with _ h; rw [← h]; exact ⟨rfl, rfl⟩
  all_goals (obtain ⟨p, _, _, rfl⟩ := h; exact ⟨rfl, rfl⟩)

theorem runC_no_date {ds : List CDir} (hd : ∀ d ∈ ds, d ≠ .year4 ∧ d ≠ .year2) {s r : Str} {t u : Cm}
    (h : runC ds s t = some (r, u)) : u.year = t.year ∧ u.yearMod = t.yearMod := by
  induction ds generalizing s t with
  | nil => simp only [runC, Option.some.injEq, Prod.mk.injEq] at h; rw [h.2]; exact ⟨rfl, rfl⟩
  | cons d ds ih =>
    rw [runC] at h
    cases hr : d.run s t with
    | none => rw [hr] at h; cases h
    | some p =>
      obtain ⟨s', t'⟩ := p
      rw [hr] at h
      have := run_no_date (hd d (by simp)) hr
      have := ih (fun e he => hd e (by simp [he])) h
      simp_all

theorem chrono_no_date {u : Cm} (h : u.year = none ∧ u.yearMod = none) : u.chrono = none := by
  simp [Cm.chrono, Cm.date, h.1, h.2]

theorem time_alone_none {X : Str} {n : Nat} (hX : ∃ r, X = digits2 n ++ ':' :: r)
    (h1 : ∀ u, runC hmsC X {} ≠ some ([], u)) (h2 : ∀ u, runC hmC X {} ≠ some ([], u)) :
    mfElem polarsStrptime (defaultFormats timeFormatsPolars) (some X) = 0 := by
  obtain ⟨r, rfl⟩ := hX
  have ho := runC_other_sep n (c := ':') (by decide) r
  have n0 : ∀ ds, polarsValue ds (digits2 n ++ ':' :: r) = none → usefulC (digits2 n ++ ':' :: r) ds = none := by
    intro ds h; simp [usefulC, h]
  refine polars_none ?_ ?_
  · intro dd hdd sd hsd
    apply n0
    apply value_nomatch
    intro t
    have : runC dd (digits2 n ++ ':' :: r) {} = none := by
      rcases mem_dateC hdd with rfl | ⟨x, hx, rfl | rfl⟩
      · exact ho.1 (by decide)
      · exact ho.2 x _ (sep_facts x hx) (by rcases hx with rfl | rfl | rfl <;> decide)
      · exact ho.2 x _ (sep_facts x hx) (by rcases hx with rfl | rfl | rfl <;> decide)
    rw [runC_append, this]; simp
  · have k : ∀ td : List CDir, (∃ d ∈ td, ¬(d ≠ .frac ∧ d ≠ .ampm ∧ d ≠ .hour12)) → (∀ d ∈ td, d ≠ .year4 ∧ d ≠ .year2) →
        polarsValue td (digits2 n ++ ':' :: r) = none := by
      intro td ⟨d, hd, hb⟩ hn
      unfold polarsValue
      split
      · rename_i t e
        rw [if_neg (fun hf => hb (fixed_plain hf d hd)), chrono_no_date (runC_no_date hn e)]
        rfl
      · rfl
    intro td htd
    apply n0
    simp only [timeC, List.mem_cons, List.not_mem_nil, or_false] at htd
    rcases htd with rfl | rfl | rfl | rfl | rfl
    · exact value_nomatch h1
    · exact value_nomatch h2
    · exact k _ ⟨.ampm, by simp [hms12C], by simp⟩ (by simp [hms12C])
    · exact k _ ⟨.ampm, by simp [hm12C], by simp⟩ (by simp [hm12C])
    · exact k _ ⟨.frac, by simp [hmsfC], by simp⟩ (by simp [hmsfC])

/-- C101 is violated for times alone: the last three of the five formats for a time never read anything, because without
a date polars takes only formats of fixed width.  A column with a time of day to the millisecond, or with AM or PM, is not
read, although the same time after a date is. -/
theorem C101_time_alone_finding (c : Clock) (hc : c.Real) (ms : Nat) (b : Bool) (X : Str)
    (hX : X = c.write true ++ '.' :: digits3 ms ∨ X = c.write12 b) (arr : List Str) (h : X ∈ arr) :
    parsePolars arr = .error .arrowInvalid := by
  rw [parsePolars_eq, if_pos]
  refine List.any_eq_true.mpr ⟨0, List.mem_map.mpr ⟨X, h, ?_⟩, rfl⟩
  obtain ⟨h1, h2, h3⟩ := hc
  obtain ⟨f1, f2, f3⟩ := face_facts c.hour h1
  have a1 := chrono2' (lo := 0) (hi := 23) (n := c.hour) (by omega) (by omega) (by omega)
  have a1' := chrono2' (lo := 0) (hi := 23) (n := faceHour c.hour) (by omega) (by omega) (by omega)
  have a2 := chrono2' (lo := 0) (hi := 59) (n := c.minute) (by omega) (by omega) (by omega)
  have a3 := chrono2' (lo := 0) (hi := 60) (n := c.second) (by omega) (by omega) (by omega)
  rcases hX with rfl | rfl
  · refine time_alone_none (n := c.hour) ⟨_, by simp [Clock.write]; rfl⟩ ?_ ?_
    · intro u; simp [hmsC, Clock.write, digits2, runC, CDir.run, a1, a2, a3]
    · intro u; simp [hmC, Clock.write, digits2, runC, CDir.run, a1, a2]
  · refine time_alone_none (n := faceHour c.hour) ⟨_, by simp [Clock.write12]; rfl⟩ ?_ ?_
    · intro u; cases b <;> simp [hmsC, Clock.write12, digits2, runC, CDir.run, a1', a2, a3]
    · intro u; cases b <;> simp [hmC, Clock.write12, digits2, runC, CDir.run, a1', a2]

example : (⟨13, 20, 0⟩ : Clock).write12 false = "01:20 PM".toList ∧
    parsePolars ["01:20 PM".toList] = .error .arrowInvalid ∧ parsePolars ["10:20:30.125".toList] = .error .arrowInvalid ∧
    parsePolars ["13:20".toList, "10:20:30".toList] = .ok [48000000, 37230000] := by decide +kernel

/-- C101 is violated for time zones, which the README names as a reason for polars: no default format has one. -/
theorem C101_zone_finding : ∀ s ∈ ["2024-02-01 10:20:30+01:00", "2024-02-01T10:20:30Z", "2024-02-01 01:20:30 PM +0100",
      "2024-02-01 01:20 PM UTC"], parsePolars [s.toList] = .error .arrowInvalid := by decide +kernel

end Rxls
