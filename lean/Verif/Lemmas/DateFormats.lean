import Verif.Lemmas.DateText

namespace Rxls

def hmsDirs : List Dir := [.hour, .lit ':', .minute, .lit ':', .second]
def hmDirs : List Dir := [.hour, .lit ':', .minute]
def isoDirs : List Dir := [.year4, .lit '-', .month, .lit '-', .day]
def dmyDirs (c : Char) (y : Dir) : List Dir := [.day, .lit c, .month, .lit c, y]

def suffixDirs : List (List Dir) := [.space :: hmsDirs, .lit 'T' :: hmsDirs, .space :: hmDirs, .lit 'T' :: hmDirs, []]

def dateDirs : List (List Dir) :=
  [isoDirs, dmyDirs '/' .year4, dmyDirs '/' .year2, dmyDirs '.' .year4, dmyDirs '.' .year2, dmyDirs '-' .year4,
    dmyDirs '-' .year2]

/-- The default formats as conversions. -/
theorem defaultFormats_dirs : (defaultFormats timeFormatsArrow).map fmtDirs =
    (dateDirs.flatMap (fun dd => suffixDirs.map (dd ++ ·)) ++ dateDirs ++ [hmsDirs, hmDirs]).map some := by
  decide +kernel

/-- A complete match with a value other than 0. -/
def usefulEnd : Option (Str × Tm) → Option Int
  | some ([], t) => if timeOfDay t.millis = 0 then none else some (timeOfDay t.millis)
  | _ => none

def useful (s : Str) (ds : List Dir) : Option Int := usefulEnd (runDirs ds s {})

theorem runDirs_append (a b : List Dir) (s : Str) (t : Tm) :
    runDirs (a ++ b) s t = match runDirs a s t with | none => none | some (s, t) => runDirs b s t := by
  induction a generalizing s t with
  | nil => rfl
  | cons d a ih =>
    simp only [List.cons_append, runDirs]
    cases d.run s t with
    | none => rfl
    | some p => exact ih _ _

theorem findSome_map_some {α β : Type} (L : List Str) (f : Str → Option α) (D : List α) (h : L.map f = D.map some)
    (u : Str → Option β) (v : α → Option β) (hu : ∀ x d, f x = some d → u x = v d) : L.findSome? u = D.findSome? v := by
  induction L generalizing D with
  | nil => cases D <;> simp_all
  | cons x L ih =>
    cases D with
    | nil => simp at h
    | cons d D =>
      simp only [List.map_cons, List.cons.injEq] at h
      simp only [List.findSome?_cons, hu x d h.1, ih D h.2]

def suffixBlock (p : Option (Str × Tm)) : Option Int :=
  suffixDirs.findSome? fun ds => usefulEnd (match p with | none => none | some (s, t) => runDirs ds s t)

/-- What the default formats make of a text. -/
theorem mfElem_default (s : Str) : mfElem arrowStrptime (defaultFormats timeFormatsArrow) (some s) =
    ((dateDirs.findSome? fun dd => suffixBlock (runDirs dd s {})).or
      ((dateDirs.findSome? (useful s)).or ([hmsDirs, hmDirs].findSome? (useful s)))).getD 0 := by
  rw [mfElem_usable, findSome_map_some _ fmtDirs _ defaultFormats_dirs _ (useful s)]
  · congr 1
    rw [List.findSome?_append, List.findSome?_append, Option.or_assoc]
    congr 1
    induction dateDirs with
    | nil => rfl
    | cons dd l ih =>
      rw [List.flatMap_cons, List.findSome?_append, List.findSome?_cons, ih]
      have : List.findSome? (useful s) (List.map (dd ++ ·) suffixDirs) = suffixBlock (runDirs dd s {}) := by
        rw [List.findSome?_map, suffixBlock]
        congr 1
        funext ds
        simp only [Function.comp, useful, runDirs_append]
        cases runDirs dd s {} <;> rfl
      rw [this]
      cases suffixBlock (runDirs dd s {}) <;> rfl
  · intro x d h
    simp only [arrowStrptime, h, useful]
    cases runDirs d s {} with
    | none => rfl
    | some p =>
      obtain ⟨r, t⟩ := p
      cases r <;> rfl

/-! ## The part after the date -/

theorem suffixBlock_none : suffixBlock none = none := rfl

theorem suffixBlock_digit {n : Nat} {r : Str} (t : Tm) (h : afterDigits r ≠ some ':') :
    suffixBlock (some (digitChar n :: r, t)) = none := by
  have hT : digitChar n ≠ 'T' := digitChar_ne n (by decide)
  have hs : ∀ c u, digitChar n :: r = c :: u → cSpace c = false := by
    intro c u e; injection e with e1 e2; rw [← e1]; exact digitChar_space n
  have ha : afterDigits (digitChar n :: r) ≠ some ':' := by rwa [afterDigits_digit]
  have hd : (digitChar n :: r).dropWhile cSpace = digitChar n :: r := by simp [digitChar_space]
  have f1 : ∀ ds, runDirs (.hour :: .lit ':' :: ds) (digitChar n :: r) t = none := fun ds =>
    run_num_lit_fail rfl (by decide) ds t hs ha
  have e1 : runDirs (.space :: hmsDirs) (digitChar n :: r) t = none := by
    rw [runDirs, Dir.run, hd]; exact f1 _
  have e2 : runDirs (.space :: hmDirs) (digitChar n :: r) t = none := by
    rw [runDirs, Dir.run, hd]; exact f1 _
  have e3 : ∀ ds, runDirs (.lit 'T' :: ds) (digitChar n :: r) t = none := by
    intro ds; simp [runDirs, Dir.run, hT]
  have e4 : runDirs [] (digitChar n :: r) t = some (digitChar n :: r, t) := rfl
  simp [suffixBlock, suffixDirs, e1, e2, e3, e4, usefulEnd]

theorem run_hms {c : Clock} (hc : c.Real) (t : Tm) (r : Str) :
    runDirs hmsDirs (c.write true ++ r) t = some (r, { t with hour := c.hour, minute := c.minute, second := c.second }) := by
  obtain ⟨h1, h2, h3⟩ := hc
  simp [hmsDirs, runDirs, Dir.run, Clock.write, getNumber_digits2 (Nat.zero_le _) (Nat.le_of_lt_succ h1) (by omega),
    getNumber_digits2 (lo := 0) (hi := 59) (Nat.zero_le _) (Nat.le_of_lt_succ h2) (by omega),
    getNumber_digits2 (lo := 0) (hi := 61) (n := c.second) (Nat.zero_le _) (by omega) (by omega)]

theorem run_hm {c : Clock} (hc : c.Real) (t : Tm) (r : Str) :
    runDirs hmDirs (c.write false ++ r) t = some (r, { t with hour := c.hour, minute := c.minute }) := by
  obtain ⟨h1, h2, h3⟩ := hc
  simp [hmDirs, runDirs, Dir.run, Clock.write, getNumber_digits2 (Nat.zero_le _) (Nat.le_of_lt_succ h1) (by omega),
    getNumber_digits2 (lo := 0) (hi := 59) (Nat.zero_le _) (Nat.le_of_lt_succ h2) (by omega)]

theorem run_hms_short {c : Clock} (hc : c.Real) (t : Tm) : runDirs hmsDirs (c.write false) t = none := by
  have := run_hm hc t []
  rw [List.append_nil] at this
  rw [show hmsDirs = hmDirs ++ [.lit ':', .second] from rfl, runDirs_append, this]
  rfl

/-- The fields of a date at midnight. -/
def Tm.AtMidnight (t : Tm) : Prop := t.hour = 0 ∧ t.minute = 0 ∧ t.second = 0

theorem suffixBlock_nothing {t : Tm} : suffixBlock (some ([], t)) =
    if timeOfDay t.millis = 0 then none else some (timeOfDay t.millis) := by
  have e1 : ∀ ds, runDirs (.space :: .hour :: ds) [] t = none := fun ds => rfl
  have e2 : ∀ ds, runDirs (.lit 'T' :: ds) [] t = none := fun ds => rfl
  have e3 : runDirs [] [] t = some ([], t) := rfl
  simp only [suffixBlock, suffixDirs, hmsDirs, hmDirs, List.findSome?_cons, List.findSome?_nil, e1, e2, e3, usefulEnd]
  by_cases h : timeOfDay t.millis = 0 <;> simp [h]

/-- The date read so far, and the time written after it: the value, unless it counts as nothing. -/
theorem suffixBlock_write {ts : TimeStyle} {c : Clock} (hf : ts.Fits c) (hc : c.Real) {t : Tm} (h0 : t.AtMidnight)
    {v : Int} (hv : v = timeOfDay (t.millis + c.millis)) (hne : v ≠ 0) :
    suffixBlock (some (ts.write c, t)) = some v := by
  obtain ⟨a0, b0, c0⟩ := h0
  cases ts with
  | nothing =>
    have hf : c = ⟨0, 0, 0⟩ := hf
    subst hf
    have : v = timeOfDay t.millis := by rw [hv]; simp [Clock.millis]
    rw [TimeStyle.write, suffixBlock_nothing, ← this, if_neg hne]
  | after sep seconds =>
    obtain ⟨hsep, hsec⟩ := hf
    have hm : ∀ u : Tm, u = { t with hour := c.hour, minute := c.minute, second := c.second } →
        timeOfDay u.millis = v := by
      rintro u rfl
      rw [hv]
      simp only [Tm.millis, a0, b0, c0, Clock.millis]
      congr 1
      push_cast
      omega
    have hd : ∀ b, (c.write b).dropWhile cSpace = c.write b := by
      intro b; cases b <;> simp [Clock.write, digits2, digitChar_space]
    have eT : cSpace 'T' = false := by decide
    have eS : cSpace ' ' = true := by decide
    have hTd : ∀ (ds : List Dir) (s : Str) (t : Tm), runDirs (.hour :: ds) ('T' :: s) t = none := by
      intro ds s t; simp [runDirs, Dir.run, getNumber, eT]
    have l1 := run_hms hc t []
    have l2 := run_hm hc t []
    rw [List.append_nil] at l1 l2
    have k := run_hms_short hc t
    rcases hsep with rfl | rfl <;> cases seconds
    · have e1 : runDirs (.space :: hmsDirs) (' ' :: c.write false) t = none := by
        rw [runDirs]; simp only [Dir.run, List.dropWhile_cons, eS, if_true, hd]; exact k
      have e2 : ∀ ds, runDirs (.lit 'T' :: ds) (' ' :: c.write false) t = none := fun ds => rfl
      have e3 : runDirs (.space :: hmDirs) (' ' :: c.write false) t =
          some ([], { t with hour := c.hour, minute := c.minute }) := by
        rw [runDirs]; simp only [Dir.run, List.dropWhile_cons, eS, if_true, hd]; exact l2
      have hm := hm { t with hour := c.hour, minute := c.minute } (by rw [hsec rfl, ← c0])
      simp [suffixBlock, suffixDirs, TimeStyle.write, e1, e2, e3, usefulEnd, hm, hne]
    · have e1 : runDirs (.space :: hmsDirs) (' ' :: c.write true) t =
          some ([], { t with hour := c.hour, minute := c.minute, second := c.second }) := by
        rw [runDirs]; simp only [Dir.run, List.dropWhile_cons, eS, if_true, hd]; exact l1
      have hm := hm _ rfl
      simp [suffixBlock, suffixDirs, TimeStyle.write, e1, usefulEnd, hm, hne]
    · have e1 : ∀ ds, runDirs (.space :: .hour :: ds) ('T' :: c.write false) t = none := by
        intro ds
        rw [runDirs]; simp only [Dir.run, List.dropWhile_cons, eT]; exact hTd _ _ _
      have e2 : runDirs (.lit 'T' :: hmsDirs) ('T' :: c.write false) t = none := by
        rw [runDirs]; exact k
      have e3 : runDirs (.lit 'T' :: hmDirs) ('T' :: c.write false) t =
          some ([], { t with hour := c.hour, minute := c.minute }) := by
        rw [runDirs]; exact l2
      have hm := hm { t with hour := c.hour, minute := c.minute } (by rw [hsec rfl, ← c0])
      have e1' := e1 [.lit ':', .minute, .lit ':', .second]
      have e1'' := e1 [.lit ':', .minute]
      have d1 : hmsDirs = [.hour, .lit ':', .minute, .lit ':', .second] := rfl
      have d2 : hmDirs = [.hour, .lit ':', .minute] := rfl
      rw [← d1] at e1'
      rw [← d2] at e1''
      simp [suffixBlock, suffixDirs, TimeStyle.write, e1', e1'', e2, e3, usefulEnd, hm, hne]
    · have e1 : runDirs (.space :: hmsDirs) ('T' :: c.write true) t = none := by
        rw [runDirs]; simp only [Dir.run, List.dropWhile_cons, eT]; exact hTd _ _ _
      have e2 : runDirs (.lit 'T' :: hmsDirs) ('T' :: c.write true) t =
          some ([], { t with hour := c.hour, minute := c.minute, second := c.second }) := by
        rw [runDirs]; exact l1
      have hm := hm _ rfl
      simp [suffixBlock, suffixDirs, TimeStyle.write, e1, e2, usefulEnd, hm, hne]

/-! ## The date -/

theorem digits2_head (n : Nat) (r : Str) : ∀ c t, digits2 n ++ r = c :: t → cSpace c = false := by
  intro c t e; simp only [digits2, List.cons_append] at e; injection e with e1 _; rw [← e1]; exact digitChar_space _

theorem afterDigits_digits2 (n : Nat) (r : Str) : afterDigits (digits2 n ++ r) = afterDigits r := by
  simp [digits2, afterDigits_digit]

theorem afterDigits_digits4 (n : Nat) (r : Str) : afterDigits (digits4 n ++ r) = afterDigits r := by
  simp [digits4, afterDigits_digit]

/-- Another separator. -/
theorem run_other_sep (n : Nat) {c : Char} (hc : c.isDigit = false) (r : Str) :
    (c ≠ '-' → runDirs isoDirs (digits2 n ++ c :: r) {} = none) ∧
      ∀ c' y, c'.isDigit = false → c ≠ c' → runDirs (dmyDirs c' y) (digits2 n ++ c :: r) {} = none := by
  have ha : afterDigits (digits2 n ++ c :: r) = some c := by rw [afterDigits_digits2, afterDigits_other hc]
  constructor
  · intro h
    exact run_num_lit_fail rfl (by decide) _ _ (digits2_head _ _) (by rw [ha]; simpa using h)
  · intro c' y h1 h2
    exact run_num_lit_fail rfl h1 _ _ (digits2_head _ _) (by rw [ha]; simpa using h2)

theorem real_bounds {d : Date} (h : d.Real) : 1 ≤ d.month ∧ d.month ≤ 12 ∧ 1 ≤ d.day ∧ d.day ≤ 31 := by
  obtain ⟨h1, h2, h3, h4⟩ := h
  have := (daysInMonth_le d.year d.month).1
  omega

theorem run_iso {d : Date} (h : d.Real) (hy : d.year < 10000) (r : Str) :
    runDirs isoDirs (DateStyle.iso.write d ++ r) {} = some (r, { year := d.year, month := d.month, day := d.day }) := by
  obtain ⟨h1, h2, h3, h4⟩ := real_bounds h
  simp [isoDirs, runDirs, Dir.run, DateStyle.write, getNumber_digits4 hy, getNumber_digits2 h1 h2 (by omega),
    getNumber_digits2 h3 h4 (by omega)]

theorem run_dm {d : Date} (h : d.Real) (c : Char) (y : Dir) (r : Str) :
    runDirs (dmyDirs c y) (digits2 d.day ++ c :: (digits2 d.month ++ c :: r)) {} =
      runDirs [y] r { month := d.month, day := d.day } := by
  obtain ⟨h1, h2, h3, h4⟩ := real_bounds h
  simp [dmyDirs, runDirs, Dir.run, getNumber_digits2 h1 h2 (by omega), getNumber_digits2 h3 h4 (by omega)]

theorem run_dmy {d : Date} (h : d.Real) (hy : d.year < 10000) (c : Char) (r : Str) :
    runDirs (dmyDirs c .year4) (digits2 d.day ++ c :: (digits2 d.month ++ c :: (digits4 d.year ++ r))) {} =
      some (r, { year := d.year, month := d.month, day := d.day }) := by
  rw [run_dm h]
  simp [runDirs, Dir.run, getNumber_digits4 hy]

theorem run_dmy2_as4 {d : Date} (h : d.Real) (c : Char) {n : Nat} (hn : n < 100) (r : Str)
    (hr : ∀ c s, r = c :: s → c.isDigit = false) :
    runDirs (dmyDirs c .year4) (digits2 d.day ++ c :: (digits2 d.month ++ c :: (digits2 n ++ r))) {} =
      some (r, { year := n, month := d.month, day := d.day }) := by
  rw [run_dm h]
  simp [runDirs, Dir.run, getNumber_year2 hn r hr]

theorem run_dmy2 {d : Date} (h : d.Real) (c : Char) {n : Nat} (hn : n < 100) (r : Str) :
    runDirs (dmyDirs c .year2) (digits2 d.day ++ c :: (digits2 d.month ++ c :: (digits2 n ++ r))) {} =
      some (r, { year := if 69 ≤ n then 1900 + n else 2000 + n, month := d.month, day := d.day }) := by
  rw [run_dm h]
  simp [runDirs, Dir.run, getNumber_digits2 (lo := 0) (hi := 99) (Nat.zero_le _) (Nat.le_of_lt_succ hn) hn]

/-- The ISO formats on a date written day first: the day is taken for the year. -/
theorem run_iso_dash {d : Date} (h : d.Real) (r : Str) :
    runDirs isoDirs (digits2 d.day ++ '-' :: (digits2 d.month ++ '-' :: r)) {} =
      runDirs [.day] r { year := d.day, month := d.month } := by
  obtain ⟨h1, h2, h3, h4⟩ := real_bounds h
  have e := getNumber_year2 (n := d.day) (by omega) ('-' :: (digits2 d.month ++ '-' :: r))
    (by intro c s e; injection e with e _; rw [← e]; rfl)
  simp [isoDirs, runDirs, Dir.run, e, getNumber_digits2 h1 h2 (by omega)]

theorem run_day_digits4 (n : Nat) (r : Str) (t : Tm) : runDirs [.day] (digits4 n ++ r) t = none ∨
    ∃ k r' t', runDirs [.day] (digits4 n ++ r) t = some (digitChar k :: r', t') ∧ afterDigits r' = afterDigits r := by
  simp only [runDirs, Dir.run, getNumber, digits4, List.cons_append, List.nil_append, List.dropWhile_cons, digitChar_space,
    digitChar_isDigit, if_true, getDigits, Bool.false_eq_true, if_false, true_and, Nat.add_one_sub_one]
  by_cases h : decVal (digitChar (n / 1000)) * 10 ≤ 31
  · simp only [h, if_true]
    split
    · left; rename_i e; split at e <;> simp_all
    · right
      rename_i e
      split at e
      · simp only [Option.map_some, Option.some.injEq, Prod.mk.injEq] at e
        obtain ⟨e1, e2⟩ := e
        subst e1
        exact ⟨_, _, _, rfl, by rw [afterDigits_digit]⟩
      · cases e
  · simp only [h, if_false]
    split
    · left; rename_i e; split at e <;> simp_all
    · right
      rename_i e
      split at e
      · simp only [Option.map_some, Option.some.injEq, Prod.mk.injEq] at e
        obtain ⟨e1, e2⟩ := e
        subst e1
        exact ⟨_, _, _, rfl, by rw [afterDigits_digit, afterDigits_digit]⟩
      · cases e

theorem run_day_digits2 (n : Nat) (r : Str) (t : Tm) : runDirs [.day] (digits2 n ++ r) t = none ∨
    (∃ k t', runDirs [.day] (digits2 n ++ r) t = some (digitChar k :: r, t')) ∨
      ∃ k, runDirs [.day] (digits2 n ++ r) t = some (r, { t with day := k }) := by
  simp only [runDirs, Dir.run, getNumber, digits2, List.cons_append, List.nil_append, List.dropWhile_cons, digitChar_space,
    digitChar_isDigit, if_true, getDigits, Bool.false_eq_true, if_false, true_and, Nat.add_one_sub_one]
  by_cases h : decVal (digitChar (n / 10)) * 10 ≤ 31
  · simp only [h, if_true]
    split
    · left; rename_i e; split at e <;> simp_all
    · right; right
      rename_i e
      split at e
      · simp only [Option.map_some, Option.some.injEq, Prod.mk.injEq] at e
        obtain ⟨e1, e2⟩ := e
        subst e1 e2
        exact ⟨_, rfl⟩
      · cases e
  · simp only [h, if_false]
    split
    · left; rename_i e; split at e <;> simp_all
    · right; left
      rename_i e
      split at e
      · simp only [Option.map_some, Option.some.injEq, Prod.mk.injEq] at e
        obtain ⟨e1, e2⟩ := e
        subst e1
        exact ⟨_, _, rfl⟩
      · cases e

theorem afterDigits_time {ts : TimeStyle} {c : Clock} (hf : ts.Fits c) : afterDigits (ts.write c) ≠ some ':' ∧
    ∀ x s, ts.write c = x :: s → x.isDigit = false := by
  cases ts with
  | nothing => exact ⟨by simp [TimeStyle.write, afterDigits], by simp [TimeStyle.write]⟩
  | after sep b =>
    obtain ⟨h, -⟩ := hf
    rcases h with rfl | rfl
    · rw [TimeStyle.write, afterDigits_other (by decide)]
      exact ⟨by decide, by intro x s e; injection e with e _; rw [← e]; decide⟩
    · rw [TimeStyle.write, afterDigits_other (by decide)]
      exact ⟨by decide, by intro x s e; injection e with e _; rw [← e]; decide⟩

end Rxls
