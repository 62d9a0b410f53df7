import Verif.Model.StrptimePolars
import Verif.Spec.PreciseText
import Verif.Lemmas.DateRead

namespace Rxls

/-! ## The formats -/

def hmsC : List CDir := [.hour, .lit ':', .minute, .lit ':', .second]
def hmC : List CDir := [.hour, .lit ':', .minute]
def hms12C : List CDir := [.hour12, .lit ':', .minute, .lit ':', .second, .space, .ampm]
def hm12C : List CDir := [.hour12, .lit ':', .minute, .space, .ampm]
def hmsfC : List CDir := [.hour, .lit ':', .minute, .lit ':', .second, .frac]
def isoC : List CDir := [.year4, .lit '-', .month, .lit '-', .day]
def dmyC (c : Char) (y : CDir) : List CDir := [.day, .lit c, .month, .lit c, y]

def timeC : List (List CDir) := [hmsC, hmC, hms12C, hm12C, hmsfC]

def suffixC : List (List CDir) := (timeC.flatMap fun tf => [.space :: tf, .lit 'T' :: tf]) ++ [[]]

def dateC : List (List CDir) :=
  [isoC, dmyC '/' .year4, dmyC '/' .year2, dmyC '.' .year4, dmyC '.' .year2, dmyC '-' .year4, dmyC '-' .year2]

theorem defaultFormats_cdirs : (defaultFormats timeFormatsPolars).map fmtCDirs =
    (dateC.flatMap (fun dd => suffixC.map (dd ++ ·)) ++ dateC ++ timeC).map some := by
  decide +kernel

/-- What a format makes of a text. -/
def polarsValue (ds : List CDir) (s : Str) : Option Int :=
  match runC ds s {} with
  | some ([], t) => (if fixedMatch ds s then t.fast else none).or t.chrono
  | _ => none

def usefulC (s : Str) (ds : List CDir) : Option Int :=
  (polarsValue ds s).bind fun v => if timeOfDay v = 0 then none else some (timeOfDay v)

theorem findSome_agree {α β : Type} (u : α → Option β) (v : β) (D : List α) (h : ∀ d ∈ D, u d = none ∨ u d = some v)
    (h1 : ∃ d ∈ D, u d = some v) : D.findSome? u = some v := by
  induction D with
  | nil => simp at h1
  | cons d D ih =>
    rw [List.findSome?_cons]
    rcases h d (by simp) with e | e
    · rw [e]
      refine ih (fun x hx => h x (by simp [hx])) ?_
      obtain ⟨x, hx, hv⟩ := h1
      rcases List.mem_cons.1 hx with rfl | hx
      · rw [e] at hv; cases hv
      · exact ⟨x, hx, hv⟩
    · rw [e]

theorem mem_formats {ds : List CDir} (h : ds ∈ dateC.flatMap (fun dd => suffixC.map (dd ++ ·)) ++ dateC ++ timeC) :
    (∃ dd ∈ dateC, ∃ sd ∈ suffixC, ds = dd ++ sd) ∨ ds ∈ timeC := by
  simp only [List.mem_append, List.mem_flatMap, List.mem_map] at h
  rcases h with (⟨dd, hd, sd, hs, rfl⟩ | h) | h
  · exact Or.inl ⟨dd, hd, sd, hs, rfl⟩
  · exact Or.inl ⟨ds, h, [], by simp [suffixC], by simp⟩
  · exact Or.inr h

/-- If every format that accepts the text reads the same, and one does, that is what is read. -/
theorem polars_agree {s : Str} {v : Int}
    (h1 : ∀ dd ∈ dateC, ∀ sd ∈ suffixC, usefulC s (dd ++ sd) = none ∨ usefulC s (dd ++ sd) = some v)
    (h2 : ∀ td ∈ timeC, usefulC s td = none ∨ usefulC s td = some v)
    (h3 : (∃ dd ∈ dateC, ∃ sd ∈ suffixC, usefulC s (dd ++ sd) = some v) ∨ ∃ td ∈ timeC, usefulC s td = some v) :
    mfElem polarsStrptime (defaultFormats timeFormatsPolars) (some s) = v := by
  rw [mfElem_usable, findSome_map_some _ fmtCDirs _ defaultFormats_cdirs _ (usefulC s)]
  · rw [findSome_agree _ v]
    · rfl
    · intro ds hds
      rcases mem_formats hds with ⟨dd, hd, sd, hs, rfl⟩ | h
      · exact h1 dd hd sd hs
      · exact h2 ds h
    · rcases h3 with ⟨dd, hd, sd, hs, e⟩ | ⟨td, ht, e⟩
      · refine ⟨dd ++ sd, ?_, e⟩
        simp only [List.mem_append, List.mem_flatMap, List.mem_map]
        exact Or.inl (Or.inl ⟨dd, hd, sd, hs, rfl⟩)
      · exact ⟨td, by simp [ht], e⟩
  · intro x d h
    simp only [polarsStrptime, h, usefulC, polarsValue]
    rfl

/-- If no format accepts the text, nothing is read. -/
theorem polars_none {s : Str} (h1 : ∀ dd ∈ dateC, ∀ sd ∈ suffixC, usefulC s (dd ++ sd) = none)
    (h2 : ∀ td ∈ timeC, usefulC s td = none) :
    mfElem polarsStrptime (defaultFormats timeFormatsPolars) (some s) = 0 := by
  rw [mfElem_usable, findSome_map_some _ fmtCDirs _ defaultFormats_cdirs _ (usefulC s)]
  · rw [List.findSome?_eq_none_iff.2]
    · rfl
    · intro ds hds
      rcases mem_formats hds with ⟨dd, hd, sd, hs, rfl⟩ | h
      · exact h1 dd hd sd hs
      · exact h2 ds h
  · intro x d h
    simp only [polarsStrptime, h, usefulC, polarsValue]
    rfl

/-- If every format that accepts the text reads the same, and one does, that is what is read. -/
theorem polars_value {s : Str} {x : Int}
    (h1 : ∀ dd ∈ dateC, ∀ sd ∈ suffixC, polarsValue (dd ++ sd) s = none ∨ polarsValue (dd ++ sd) s = some x)
    (h2 : ∀ td ∈ timeC, polarsValue td s = none ∨ polarsValue td s = some x)
    (h3 : (∃ dd ∈ dateC, ∃ sd ∈ suffixC, polarsValue (dd ++ sd) s = some x) ∨ ∃ td ∈ timeC, polarsValue td s = some x) :
    mfElem polarsStrptime (defaultFormats timeFormatsPolars) (some s) = timeOfDay x := by
  have n0 : ∀ ds, polarsValue ds s = none → usefulC s ds = none := by intro ds h; simp [usefulC, h]
  by_cases hx : timeOfDay x = 0
  · have z : ∀ ds, polarsValue ds s = some x → usefulC s ds = none := by intro ds h; simp [usefulC, h, hx]
    rw [hx]
    exact polars_none (fun dd hd sd hs => (h1 dd hd sd hs).elim (n0 _) (z _)) (fun td ht => (h2 td ht).elim (n0 _) (z _))
  · have g : ∀ ds, polarsValue ds s = some x → usefulC s ds = some (timeOfDay x) := by intro ds h; simp [usefulC, h, hx]
    refine polars_agree (fun dd hd sd hs => (h1 dd hd sd hs).imp (n0 _) (g _)) (fun td ht => (h2 td ht).imp (n0 _) (g _)) ?_
    rcases h3 with ⟨dd, hd, sd, hs, e⟩ | ⟨td, ht, e⟩
    · exact Or.inl ⟨dd, hd, sd, hs, g _ e⟩
    · exact Or.inr ⟨td, ht, g _ e⟩

theorem runC_append (a b : List CDir) (s : Str) (t : Cm) :
    runC (a ++ b) s t = match runC a s t with | none => none | some (s, t) => runC b s t := by
  induction a generalizing s t with
  | nil => rfl
  | cons d a ih =>
    simp only [List.cons_append, runC]
    cases d.run s t with
    | none => rfl
    | some p => exact ih _ _

theorem value_nomatch {s : Str} {ds : List CDir} (h : ∀ t, runC ds s {} ≠ some ([], t)) : polarsValue ds s = none := by
  unfold polarsValue
  split
  · rename_i t e; exact absurd e (h t)
  · rfl

/-! ## Numbers -/

theorem chrono2 {lo hi n : Nat} (h1 : lo ≤ n) (h2 : n ≤ hi) (h3 : n < 100) (rest : Str) :
    chronoNumber lo hi 2 (digits2 n ++ rest) = some (n, rest) := by
  have := getNumber_digits2 (lo := 0) (hi := 99) (Nat.zero_le n) (by omega) h3 rest
  simp [chronoNumber, this, h1, h2]

theorem chrono2' {lo hi n : Nat} (h1 : lo ≤ n) (h2 : n ≤ hi) (h3 : n < 100) (rest : Str) :
    chronoNumber lo hi 2 (digitChar (n / 10) :: digitChar n :: rest) = some (n, rest) := chrono2 h1 h2 h3 rest

theorem chrono4 {n : Nat} (h3 : n < 10000) (rest : Str) :
    chronoNumber 0 9999 4 (digits4 n ++ rest) = some (n, rest) := by
  have := getNumber_digits4 h3 rest
  simp only [chronoNumber, Nat.reducePow, Nat.add_one_sub_one, this]
  simp; omega

theorem chronoYear2 {n : Nat} (h3 : n < 100) (rest : Str) (h : ∀ c r, rest = c :: r → c.isDigit = false) :
    chronoNumber 0 9999 4 (digits2 n ++ rest) = some (n, rest) := by
  have := getNumber_year2 h3 rest h
  simp only [chronoNumber, Nat.reducePow, Nat.add_one_sub_one, this]
  simp; omega

theorem chrono_after {lo hi n v : Nat} {s r : Str} (h : chronoNumber lo hi n s = some (v, r))
    (hs : ∀ c t, s = c :: t → cSpace c = false) : afterDigits r = afterDigits s := by
  unfold chronoNumber at h
  split at h
  · cases h
  · rename_i p hp
    split at h
    · injection h with h
      subst h
      exact getNumber_after hp hs
    · cases h

def CDir.isNum : CDir → Bool
  | .lit _ => false
  | .space => false
  | .ampm => false
  | .frac => false
  | _ => true

theorem runCNum_after {d : CDir} (hd : d.isNum = true) {s r : Str} {t t' : Cm} (h : d.run s t = some (r, t'))
    (hs : ∀ c t, s = c :: t → cSpace c = false) : afterDigits r = afterDigits s := by
  cases d <;> simp only [CDir.isNum, Bool.false_eq_true] at hd <;>
    simp only [CDir.run, Option.map_eq_some_iff, Prod.mk.injEq] at h <;>
    (obtain ⟨p, hp, rfl, -⟩ := h; exact chrono_after hp hs)

/-- A number and then a character that is not next. -/
theorem runC_num_lit_fail {d : CDir} (hd : d.isNum = true) {c : Char} (hc : c.isDigit = false) (ds : List CDir) {s : Str}
    (t : Cm) (hs : ∀ c t, s = c :: t → cSpace c = false) (hne : afterDigits s ≠ some c) :
    runC (d :: .lit c :: ds) s t = none := by
  rw [runC]
  cases h : d.run s t with
  | none => rfl
  | some p =>
    obtain ⟨r, t'⟩ := p
    have ha := runCNum_after hd h hs
    simp only [runC]
    cases r with
    | nil => rfl
    | cons x r =>
      have : x ≠ c := by
        rintro rfl
        apply hne
        rw [← ha]
        simp [afterDigits, hc]
      simp [CDir.run, this]

/-! ## The fixed widths -/

theorem fixed_plain {ds : List CDir} {s : Str} (h : fixedMatch ds s = true) :
    ∀ d ∈ ds, d ≠ .frac ∧ d ≠ .ampm ∧ d ≠ .hour12 := by
  induction ds, s using fixedMatch.induct <;> simp_all [fixedMatch]

/-! ## The part after the date -/

/-- The fields of a date. -/
def dateFields (y m d : Nat) : Cm := { year := some y, month := some m, day := some d }

/-- What a format for the time makes of the text after a date. -/
def SuffixOk (r : Str) (t : Cm) (x : Int) (sd : List CDir) : Prop :=
  (∀ u, runC sd r t ≠ some ([], u)) ∨
    ∃ u, runC sd r t = some ([], u) ∧ (u.chrono = some x ∨ u.chrono = none) ∧ ((∀ d ∈ sd, d ≠ .frac ∧ d ≠ .ampm ∧ d ≠ .hour12) → u.fast = some x)

theorem cSpace_facts : cSpace ' ' = true ∧ cSpace 'T' = false ∧ cSpace 'A' = false ∧ cSpace 'P' = false ∧
    cSpace '.' = false ∧ cSpace ':' = false := by decide

theorem chrono_space (lo hi n : Nat) (s : Str) : chronoNumber lo hi n (' ' :: s) = chronoNumber lo hi n s := by
  simp [chronoNumber, getNumber, cSpace_facts]

theorem chrono_letter (lo hi n : Nat) {c : Char} (s : Str) (h1 : cSpace c = false) (h2 : c.isDigit = false) :
    chronoNumber lo hi n (c :: s) = none := by
  simp [chronoNumber, getNumber, h1, h2]

theorem ampm_digit (n : Nat) (a : Str) : chronoAmPm (digitChar n :: a) = none := by
  cases a with
  | nil => rfl
  | cons b a =>
    have h := fun c (hc : c.isDigit = false) => digitChar_ne n (c := c) hc
    simp [chronoAmPm, h 'a' (by decide), h 'A' (by decide), h 'p' (by decide), h 'P' (by decide)]

theorem ampm_other {c : Char} (a : Str) (h : c = ':' ∨ c = '.') : chronoAmPm (c :: a) = none := by
  cases a with
  | nil => rfl
  | cons b a => rcases h with rfl | rfl <;> simp [chronoAmPm]

/-- A text that a time format reads: nothing or the value `x`, and some format reads `x`. -/
def TimesOk (X : Str) (t : Cm) (x : Int) : Prop :=
  (∀ tf ∈ timeC, SuffixOk X t x tf) ∧ ∃ tf ∈ timeC, ∃ u, runC tf X t = some ([], u) ∧ u.chrono = some x ∧
    ((∀ d ∈ tf, d ≠ .frac ∧ d ≠ .ampm ∧ d ≠ .hour12) → u.fast = some x)

theorem suffix_of_times {X : Str} {t : Cm} {x : Int} (hX : ∃ n r, X = digitChar n :: r) (h : TimesOk X t x) {sep : Char}
    (hsep : sep = ' ' ∨ sep = 'T') :
    (∀ sd ∈ suffixC, SuffixOk (sep :: X) t x sd) ∧
      ∃ sd ∈ suffixC, ∃ u, runC sd (sep :: X) t = some ([], u) ∧ u.chrono = some x ∧
        ((∀ d ∈ sd, d ≠ .frac ∧ d ≠ .ampm ∧ d ≠ .hour12) → u.fast = some x) := by
  obtain ⟨n, r, rfl⟩ := hX
  have e0 : runC [] (sep :: digitChar n :: r) t = some (sep :: digitChar n :: r, t) := rfl
  have k0 : SuffixOk (sep :: digitChar n :: r) t x [] := by
    left; intro u; rw [e0]; simp
  have sp : ∀ tf, runC (.space :: tf) (' ' :: digitChar n :: r) t = runC tf (digitChar n :: r) t := by
    intro tf; simp [runC, CDir.run, cSpace_facts, digitChar_space]
  have spT : ∀ tf ∈ timeC, runC (.space :: tf) ('T' :: digitChar n :: r) t = none := by
    intro tf htf
    simp only [timeC, List.mem_cons, List.not_mem_nil, or_false] at htf
    rcases htf with rfl | rfl | rfl | rfl | rfl <;>
      simp [hmsC, hmC, hms12C, hm12C, hmsfC, runC, CDir.run, cSpace_facts, chrono_letter _ _ _ (c := 'T') _ (by decide) (by decide)]
  have lT : ∀ tf, runC (.lit 'T' :: tf) ('T' :: digitChar n :: r) t = runC tf (digitChar n :: r) t := by
    intro tf; simp [runC, CDir.run]
  have lS : ∀ tf, runC (.lit 'T' :: tf) (' ' :: digitChar n :: r) t = none := by
    intro tf; simp [runC, CDir.run]
  have hmem : ∀ sd ∈ suffixC, sd = [] ∨ ∃ tf ∈ timeC, sd = .space :: tf ∨ sd = .lit 'T' :: tf := by
    intro sd hsd
    simp only [suffixC, List.mem_append, List.mem_flatMap, List.mem_cons, List.not_mem_nil, or_false] at hsd
    rcases hsd with ⟨tf, h1, h2⟩ | h
    · exact Or.inr ⟨tf, h1, h2⟩
    · exact Or.inl h
  have hin : ∀ tf ∈ timeC, CDir.space :: tf ∈ suffixC ∧ CDir.lit 'T' :: tf ∈ suffixC := by
    intro tf htf
    simp only [suffixC, List.mem_append, List.mem_flatMap, List.mem_cons, List.not_mem_nil, or_false]
    exact ⟨Or.inl ⟨tf, htf, Or.inl rfl⟩, Or.inl ⟨tf, htf, Or.inr rfl⟩⟩
  have lift : ∀ (d : CDir) (tf : List CDir), (∀ e ∈ d :: tf, e ≠ .frac ∧ e ≠ .ampm ∧ e ≠ .hour12) →
      ∀ e ∈ tf, e ≠ .frac ∧ e ≠ .ampm ∧ e ≠ .hour12 := fun d tf h e he => h e (List.mem_cons_of_mem _ he)
  obtain ⟨hall, tf0, htf0, u0, hu1, hu2, hu3⟩ := h
  constructor
  · intro sd hsd
    rcases hmem sd hsd with rfl | ⟨tf, htf, rfl | rfl⟩
    · exact k0
    · rcases hsep with rfl | rfl
      · rcases hall tf htf with h | ⟨u, h, h', h''⟩
        · left; intro u; rw [sp]; exact h u
        · right; exact ⟨u, by rw [sp]; exact h, h', fun k => h'' (lift _ _ k)⟩
      · left; intro u; rw [spT tf htf]; simp
    · rcases hsep with rfl | rfl
      · left; intro u; rw [lS]; simp
      · rcases hall tf htf with h | ⟨u, h, h', h''⟩
        · left; intro u; rw [lT]; exact h u
        · right; exact ⟨u, by rw [lT]; exact h, h', fun k => h'' (lift _ _ k)⟩
  · rcases hsep with rfl | rfl
    · exact ⟨.space :: tf0, (hin tf0 htf0).1, u0, by rw [sp]; exact hu1, hu2, fun k => hu3 (lift _ _ k)⟩
    · exact ⟨.lit 'T' :: tf0, (hin tf0 htf0).2, u0, by rw [lT]; exact hu1, hu2, fun k => hu3 (lift _ _ k)⟩

theorem frac_digits3 {ms : Nat} (h : ms < 1000) :
    chronoFrac ['.', digitChar (ms / 100), digitChar (ms / 10), digitChar ms] = some (some (ms * 1000000), []) := by
  have z : decVal '0' = 0 := rfl
  simp [chronoFrac, digitChar_isDigit, digitChar_val, List.takeWhile, List.dropWhile, List.replicate, z]
  omega

theorem hour12_maybe {h : Nat} (hh : h < 24) (r : Str) :
    chronoNumber 1 12 2 (digitChar (h / 10) :: digitChar h :: r) = none ∨
      chronoNumber 1 12 2 (digitChar (h / 10) :: digitChar h :: r) = some (h, r) := by
  have := getNumber_digits2 (lo := 0) (hi := 99) (n := h) (by omega) (by omega) (by omega) r
  simp only [digits2, List.cons_append, List.nil_append] at this
  simp only [chronoNumber, Nat.reducePow, Nat.add_one_sub_one, this]
  by_cases h : 1 ≤ h ∧ h ≤ 12 <;> simp [h]

theorem times_thousandths {c : Clock} (hc : c.Real) {ms : Nat} (hms : ms < 1000)
    {y m d : Nat} {D : Int} (hD : civilDate y m d = some D) :
    TimesOk (c.write true ++ '.' :: digits3 ms) (dateFields y m d) (D * 86400000 + c.millis + ms) := by
  obtain ⟨h1, h2, h3⟩ := hc
  have a1 := chrono2' (lo := 0) (hi := 23) (n := c.hour) (by omega) (by omega) (by omega)
  have a2 := chrono2' (lo := 0) (hi := 59) (n := c.minute) (by omega) (by omega) (by omega)
  have a3 := chrono2' (lo := 0) (hi := 60) (n := c.second) (by omega) (by omega) (by omega)
  have a4 := hour12_maybe h1
  have f := frac_digits3 hms
  have key : ∃ u, runC hmsfC (c.write true ++ '.' :: digits3 ms) (dateFields y m d) = some ([], u) ∧
      u.chrono = some (D * 86400000 + c.millis + ms) := by
    refine ⟨_, by simp [hmsfC, Clock.write, digits2, digits3, runC, CDir.run, a1, a2, a3, f]; rfl, ?_⟩
    simp [Cm.chrono, Cm.date, Cm.time, Cm.fullHour, dateFields, hD, Clock.millis]
    ring
  obtain ⟨u, hu, hx⟩ := key
  refine ⟨?_, hmsfC, by simp [timeC], u, hu, hx, fun h => absurd rfl (h .frac (by simp [hmsfC])).1⟩
  intro tf htf
  simp only [timeC, List.mem_cons, List.not_mem_nil, or_false] at htf
  rcases htf with rfl | rfl | rfl | rfl | rfl
  · left; intro u; simp [hmsC, Clock.write, digits2, digits3, runC, CDir.run, a1, a2, a3]
  · left; intro u; simp [hmC, Clock.write, digits2, digits3, runC, CDir.run, a1, a2, a3]
  · left; intro u
    rcases a4 (':' :: digitChar (c.minute / 10) :: digitChar c.minute :: ':' :: digitChar (c.second / 10) ::
      digitChar c.second :: '.' :: digits3 ms) with e | e <;>
      simp [hms12C, Clock.write, digits2, digits3, runC, CDir.run, a2, a3, cSpace_facts, ampm_other] at e ⊢ <;>
      simp [e, a2, a3, cSpace_facts, ampm_other]
  · left; intro u
    rcases a4 (':' :: digitChar (c.minute / 10) :: digitChar c.minute :: ':' :: digitChar (c.second / 10) ::
      digitChar c.second :: '.' :: digits3 ms) with e | e <;>
      simp [hm12C, Clock.write, digits2, digits3, runC, CDir.run, a2, a3, cSpace_facts, ampm_other] at e ⊢ <;>
      simp [e, a2, a3, cSpace_facts, ampm_other]
  · right; exact ⟨u, hu, Or.inl hx, fun h => absurd rfl (h .frac (by simp [hmsfC])).1⟩

theorem times_hms {c : Clock} (hc : c.Real) {y m d : Nat} {D : Int} (hD : civilDate y m d = some D) :
    TimesOk (c.write true) (dateFields y m d) (D * 86400000 + c.millis) := by
  obtain ⟨h1, h2, h3⟩ := hc
  have a1 := chrono2' (lo := 0) (hi := 23) (n := c.hour) (by omega) (by omega) (by omega)
  have a2 := chrono2' (lo := 0) (hi := 59) (n := c.minute) (by omega) (by omega) (by omega)
  have a3 := chrono2' (lo := 0) (hi := 60) (n := c.second) (by omega) (by omega) (by omega)
  have a4 := hour12_maybe h1
  have key : ∃ u, runC hmsC (c.write true) (dateFields y m d) = some ([], u) ∧
      u.chrono = some (D * 86400000 + c.millis) ∧ u.fast = some (D * 86400000 + c.millis) := by
    refine ⟨_, by simp [hmsC, Clock.write, digits2, digits3, runC, CDir.run, a1, a2, a3]; rfl, ?_, ?_⟩
    · simp [Cm.chrono, Cm.date, Cm.time, Cm.fullHour, dateFields, hD, Clock.millis]
    · simp [Cm.fast, dateFields, hD, Clock.millis, h3]
  obtain ⟨u, hu, hx, hf⟩ := key
  refine ⟨?_, hmsC, by simp [timeC], u, hu, hx, fun _ => hf⟩
  intro tf htf
  simp only [timeC, List.mem_cons, List.not_mem_nil, or_false] at htf
  rcases htf with rfl | rfl | rfl | rfl | rfl
  · right; exact ⟨u, hu, Or.inl hx, fun _ => hf⟩
  · left; intro u; simp [hmC, Clock.write, digits2, digits3, runC, CDir.run, a1, a2, a3]
  · left; intro u
    rcases a4 (':' :: digitChar (c.minute / 10) :: digitChar c.minute :: ':' :: digitChar (c.second / 10) ::
      digitChar c.second :: []) with e | e <;>
      simp [hms12C, Clock.write, digits2, digits3, runC, CDir.run, a2, a3, cSpace_facts, chronoAmPm] at e ⊢ <;>
      simp [e, a2, a3, cSpace_facts, chronoAmPm]
  · left; intro u
    rcases a4 (':' :: digitChar (c.minute / 10) :: digitChar c.minute :: ':' :: digitChar (c.second / 10) ::
      digitChar c.second :: []) with e | e <;>
      simp [hm12C, Clock.write, digits2, digits3, runC, CDir.run, a2, a3, cSpace_facts, ampm_other] at e ⊢ <;>
      simp [e, a2, a3, cSpace_facts, ampm_other]
  · right
    refine ⟨_, by simp [hmsfC, Clock.write, digits2, digits3, runC, CDir.run, a1, a2, a3, chronoFrac]; rfl, Or.inl ?_,
      fun h => absurd rfl (h .frac (by simp [hmsfC])).1⟩
    simp [Cm.chrono, Cm.date, Cm.time, Cm.fullHour, dateFields, hD, Clock.millis]

theorem times_hm {c : Clock} (hc : c.Real) (hs : c.second = 0) {y m d : Nat} {D : Int} (hD : civilDate y m d = some D) :
    TimesOk (c.write false) (dateFields y m d) (D * 86400000 + c.millis) := by
  obtain ⟨h1, h2, h3⟩ := hc
  have a1 := chrono2' (lo := 0) (hi := 23) (n := c.hour) (by omega) (by omega) (by omega)
  have a2 := chrono2' (lo := 0) (hi := 59) (n := c.minute) (by omega) (by omega) (by omega)
  have a4 := hour12_maybe h1
  have key : ∃ u, runC hmC (c.write false) (dateFields y m d) = some ([], u) ∧
      u.chrono = some (D * 86400000 + c.millis) ∧ u.fast = some (D * 86400000 + c.millis) := by
    refine ⟨_, by simp [hmC, Clock.write, digits2, digits3, runC, CDir.run, a1, a2]; rfl, ?_, ?_⟩
    · simp [Cm.chrono, Cm.date, Cm.time, Cm.fullHour, dateFields, hD, Clock.millis, hs]
    · simp [Cm.fast, dateFields, hD, Clock.millis, hs]
  obtain ⟨u, hu, hx, hf⟩ := key
  refine ⟨?_, hmC, by simp [timeC], u, hu, hx, fun _ => hf⟩
  intro tf htf
  simp only [timeC, List.mem_cons, List.not_mem_nil, or_false] at htf
  rcases htf with rfl | rfl | rfl | rfl | rfl
  · left; intro u; simp [hmsC, Clock.write, digits2, digits3, runC, CDir.run, a1, a2]
  · right; exact ⟨u, hu, Or.inl hx, fun _ => hf⟩
  · left; intro u
    rcases a4 (':' :: digitChar (c.minute / 10) :: digitChar c.minute :: []) with e | e <;>
      simp [hms12C, Clock.write, digits2, digits3, runC, CDir.run, a2, cSpace_facts, chronoAmPm] at e ⊢ <;>
      simp [e, a2, cSpace_facts, chronoAmPm]
  · left; intro u
    rcases a4 (':' :: digitChar (c.minute / 10) :: digitChar c.minute :: []) with e | e <;>
      simp [hm12C, Clock.write, digits2, digits3, runC, CDir.run, a2, cSpace_facts, chronoAmPm] at e ⊢ <;>
      simp [e, a2, cSpace_facts, chronoAmPm]
  · left; intro u; simp [hmsfC, Clock.write, digits2, digits3, runC, CDir.run, a1, a2]

theorem face_facts : ∀ h < 24, 1 ≤ faceHour h ∧ faceHour h ≤ 12 ∧
    faceHour h % 12 + (if decide (¬h < 12) then 12 else 0) = h := by decide

theorem ampm_write (h : Nat) : chronoAmPm [if h < 12 then 'A' else 'P', 'M'] = some (decide (¬h < 12), []) := by
  by_cases k : h < 12 <;> simp [chronoAmPm, k]

theorem ampm_space (h : Nat) : cSpace (if h < 12 then 'A' else 'P') = false := by
  by_cases k : h < 12 <;> simp [k, cSpace_facts]

theorem times_hms12 {c : Clock} (hc : c.Real) {y m d : Nat} {D : Int} (hD : civilDate y m d = some D) :
    TimesOk (c.write12 true) (dateFields y m d) (D * 86400000 + c.millis) := by
  obtain ⟨h1, h2, h3⟩ := hc
  obtain ⟨f1, f2, f3⟩ := face_facts c.hour h1
  have a1 := chrono2' (lo := 0) (hi := 23) (n := faceHour c.hour) (by omega) (by omega) (by omega)
  have a2 := chrono2' (lo := 0) (hi := 59) (n := c.minute) (by omega) (by omega) (by omega)
  have a3 := chrono2' (lo := 0) (hi := 60) (n := c.second) (by omega) (by omega) (by omega)
  have a4 := chrono2' (lo := 1) (hi := 12) (n := faceHour c.hour) (by omega) (by omega) (by omega)
  have s1 := ampm_space c.hour
  have s2 := ampm_write c.hour
  have key : ∃ u, runC hms12C (c.write12 true) (dateFields y m d) = some ([], u) ∧
      u.chrono = some (D * 86400000 + c.millis) := by
    refine ⟨_, by simp [hms12C, Clock.write12, digits2, digits3, runC, CDir.run, a4, a2, a3, cSpace_facts, s1, s2]; rfl, ?_⟩
    simp only [Cm.chrono, Cm.date, Cm.time, Cm.fullHour, dateFields, hD, Clock.millis, f3]
    simp
    have f3 : faceHour c.hour % 12 + (if 12 ≤ c.hour then 12 else 0) = c.hour := by simpa using f3
    exact_mod_cast f3
  obtain ⟨u, hu, hx⟩ := key
  have bad : ¬∀ d ∈ hms12C, d ≠ .frac ∧ d ≠ .ampm ∧ d ≠ .hour12 := fun h => absurd rfl (h .ampm (by simp [hms12C])).2.1
  refine ⟨?_, hms12C, by simp [timeC], u, hu, hx, fun h => absurd h bad⟩
  intro tf htf
  simp only [timeC, List.mem_cons, List.not_mem_nil, or_false] at htf
  rcases htf with rfl | rfl | rfl | rfl | rfl
  · left; intro u; simp [hmsC, Clock.write12, digits2, digits3, runC, CDir.run, a1, a2, a3]
  · left; intro u; simp [hmC, Clock.write12, digits2, digits3, runC, CDir.run, a1, a2, a3]
  · right; exact ⟨u, hu, Or.inl hx, fun h => absurd h bad⟩
  · left; intro u
    simp [hm12C, Clock.write12, digits2, digits3, runC, CDir.run, a4, a2, a3, cSpace_facts, ampm_other]
  · left; intro u; simp [hmsfC, Clock.write12, digits2, digits3, runC, CDir.run, a1, a2, a3, chronoFrac]

theorem times_hm12 {c : Clock} (hc : c.Real) (hs : c.second = 0) {y m d : Nat} {D : Int} (hD : civilDate y m d = some D) :
    TimesOk (c.write12 false) (dateFields y m d) (D * 86400000 + c.millis) := by
  obtain ⟨h1, h2, h3⟩ := hc
  obtain ⟨f1, f2, f3⟩ := face_facts c.hour h1
  have a1 := chrono2' (lo := 0) (hi := 23) (n := faceHour c.hour) (by omega) (by omega) (by omega)
  have a2 := chrono2' (lo := 0) (hi := 59) (n := c.minute) (by omega) (by omega) (by omega)
  have a4 := chrono2' (lo := 1) (hi := 12) (n := faceHour c.hour) (by omega) (by omega) (by omega)
  have s1 := ampm_space c.hour
  have s2 := ampm_write c.hour
  have key : ∃ u, runC hm12C (c.write12 false) (dateFields y m d) = some ([], u) ∧
      u.chrono = some (D * 86400000 + c.millis) := by
    refine ⟨_, by simp [hm12C, Clock.write12, digits2, digits3, runC, CDir.run, a4, a2, cSpace_facts, s1, s2]; rfl, ?_⟩
    simp only [Cm.chrono, Cm.date, Cm.time, Cm.fullHour, dateFields, hD, Clock.millis, f3, hs]
    simp
    have f3 : faceHour c.hour % 12 + (if 12 ≤ c.hour then 12 else 0) = c.hour := by simpa using f3
    exact_mod_cast f3
  obtain ⟨u, hu, hx⟩ := key
  have bad : ¬∀ d ∈ hm12C, d ≠ .frac ∧ d ≠ .ampm ∧ d ≠ .hour12 := fun h => absurd rfl (h .ampm (by simp [hm12C])).2.1
  refine ⟨?_, hm12C, by simp [timeC], u, hu, hx, fun h => absurd h bad⟩
  intro tf htf
  simp only [timeC, List.mem_cons, List.not_mem_nil, or_false] at htf
  rcases htf with rfl | rfl | rfl | rfl | rfl
  · left; intro u; simp [hmsC, Clock.write12, digits2, digits3, runC, CDir.run, a1, a2]
  · left; intro u; simp [hmC, Clock.write12, digits2, digits3, runC, CDir.run, a1, a2]
  · left; intro u; simp [hms12C, Clock.write12, digits2, digits3, runC, CDir.run, a4, a2]
  · right; exact ⟨u, hu, Or.inl hx, fun h => absurd h bad⟩
  · left; intro u; simp [hmsfC, Clock.write12, digits2, digits3, runC, CDir.run, a1, a2, chronoFrac]

/-- Nothing after the date. -/
theorem suffix_nothing {y m d : Nat} {D : Int} (hD : civilDate y m d = some D) :
    ∀ sd ∈ suffixC, SuffixOk [] (dateFields y m d) (D * 86400000) sd := by
  intro sd hsd
  simp only [suffixC, timeC, List.flatMap_cons, List.flatMap_nil, List.append_nil, List.cons_append, List.nil_append,
    List.mem_cons, List.not_mem_nil, or_false] at hsd
  rcases hsd with rfl | rfl | rfl | rfl | rfl | rfl | rfl | rfl | rfl | rfl | rfl
  case inr.inr.inr.inr.inr.inr.inr.inr.inr.inr =>
    right
    exact ⟨_, rfl, Or.inr (by simp [Cm.chrono, Cm.date, Cm.time, Cm.fullHour, dateFields]), fun _ => by simp [Cm.fast, dateFields, hD]⟩
  all_goals left; intro u; simp [runC, CDir.run, hmsC, hmC, hms12C, hm12C, hmsfC, chronoNumber, getNumber]

/-- More digits after the date: no format for the time goes on. -/
theorem suffix_digit {n : Nat} {r : Str} (t : Cm) (h : afterDigits r ≠ some ':') :
    ∀ sd ∈ suffixC, ∀ u, runC sd (digitChar n :: r) t ≠ some ([], u) := by
  have hT : digitChar n ≠ 'T' := digitChar_ne n (by decide)
  have hs : ∀ c u, digitChar n :: r = c :: u → cSpace c = false := by
    intro c u e; injection e with e1 e2; rw [← e1]; exact digitChar_space n
  have ha : afterDigits (digitChar n :: r) ≠ some ':' := by rwa [afterDigits_digit]
  have f1 : ∀ ds, runC (.hour :: .lit ':' :: ds) (digitChar n :: r) t = none := fun ds =>
    runC_num_lit_fail rfl (by decide) ds t hs ha
  have f2 : ∀ ds, runC (.hour12 :: .lit ':' :: ds) (digitChar n :: r) t = none := fun ds =>
    runC_num_lit_fail rfl (by decide) ds t hs ha
  have e0 : ∀ ds, runC (.space :: ds) (digitChar n :: r) t = runC ds (digitChar n :: r) t := by
    intro ds; simp [runC, CDir.run, digitChar_space]
  have e3 : ∀ ds, runC (.lit 'T' :: ds) (digitChar n :: r) t = none := by
    intro ds; simp [runC, CDir.run, hT]
  intro sd hsd u
  simp only [suffixC, timeC, List.flatMap_cons, List.flatMap_nil, List.append_nil, List.cons_append, List.nil_append,
    List.mem_cons, List.not_mem_nil, or_false] at hsd
  rcases hsd with rfl | rfl | rfl | rfl | rfl | rfl | rfl | rfl | rfl | rfl | rfl <;>
    simp only [e0, e3, hmsC, hmC, hms12C, hm12C, hmsfC, f1, f2, ne_eq, reduceCtorEq, not_false_eq_true]
  simp [runC]

/-! ## The date -/

/-- Two digits for a number of two digits: it is out of range, or the rest of the text follows. -/
theorem chrono_two (lo hi a b : Nat) (r : Str) : chronoNumber lo hi 2 (digitChar a :: digitChar b :: r) = none ∨
    ∃ v, chronoNumber lo hi 2 (digitChar a :: digitChar b :: r) = some (v, r) := by
  have h : decVal (digitChar a) * 10 ≤ 99 := by rw [digitChar_val]; omega
  simp only [chronoNumber, getNumber, List.dropWhile_cons, digitChar_space, digitChar_isDigit, if_true, getDigits,
    Bool.false_eq_true, if_false, true_and, Nat.add_one_sub_one, Nat.reducePow, h, Nat.zero_le]
  split
  · left; rfl
  · rename_i p hp
    split at hp
    · injection hp with hp
      subst hp
      split
      · right; exact ⟨_, rfl⟩
      · left; rfl
    · cases hp

/-- How the date of a text is read by the format of a date: not at all, completely, or with digits left over. -/
def DateOk (dd : List CDir) (s r : Str) (t : Cm) : Prop :=
  runC dd s {} = none ∨ runC dd s {} = some (r, t) ∨
    ∃ k r' t', runC dd s {} = some (digitChar k :: r', t') ∧ afterDigits r' = afterDigits r

theorem sep_facts (c : Char) (h : c = '/' ∨ c = '.' ∨ c = '-') : c.isDigit = false := by
  rcases h with rfl | rfl | rfl <;> decide

/-- The ISO style under the formats with the day first. -/
theorem dateOk_iso_dmy (c : Char) (hc : c.isDigit = false) (y : CDir) (Y : Nat) (r : Str) :
    runC (dmyC c y) (digits4 Y ++ r) {} = none := by
  have hne := fun n => digitChar_ne n hc
  simp only [dmyC, digits4, List.cons_append, List.nil_append, runC, CDir.run]
  rcases chrono_two 1 31 (Y / 1000) (Y / 100) (digitChar (Y / 10) :: digitChar Y :: r) with e | ⟨v, e⟩
  · simp [e]
  · simp [e, hne]

theorem runC_iso {d : Date} (h : d.Real) (hy : d.year < 10000) (r : Str) :
    runC isoC (DateStyle.iso.write d ++ r) {} = some (r, dateFields d.year d.month d.day) := by
  obtain ⟨h1, h2, h3, h4⟩ := real_bounds h
  simp [isoC, runC, CDir.run, DateStyle.write, chrono4 hy, chrono2 h1 h2 (by omega), chrono2 h3 h4 (by omega), dateFields]

theorem runC_dm {d : Date} (h : d.Real) (c : Char) (y : CDir) (r : Str) :
    runC (dmyC c y) (digits2 d.day ++ c :: (digits2 d.month ++ c :: r)) {} =
      runC [y] r { month := some d.month, day := some d.day } := by
  obtain ⟨h1, h2, h3, h4⟩ := real_bounds h
  simp [dmyC, runC, CDir.run, chrono2 h1 h2 (by omega), chrono2 h3 h4 (by omega)]

theorem runC_dmy {d : Date} (h : d.Real) (hy : d.year < 10000) (c : Char) (r : Str) :
    runC (dmyC c .year4) (digits2 d.day ++ c :: (digits2 d.month ++ c :: (digits4 d.year ++ r))) {} =
      some (r, dateFields d.year d.month d.day) := by
  rw [runC_dm h]
  simp [runC, CDir.run, chrono4 hy, dateFields]

theorem runC_dmy2 {d : Date} (h : d.Real) (c : Char) (r : Str) (t : Cm) :
    DateOk (dmyC c .year2) (digits2 d.day ++ c :: (digits2 d.month ++ c :: (digits4 d.year ++ r))) r t := by
  unfold DateOk
  rw [runC_dm h]
  simp only [digits4, List.cons_append, List.nil_append, runC, CDir.run]
  rcases chrono_two 0 99 (d.year / 1000) (d.year / 100) (digitChar (d.year / 10) :: digitChar d.year :: r) with e | ⟨v, e⟩
  · left; simp [e]
  · right; right
    exact ⟨d.year / 10, digitChar d.year :: r, _, by simp [e]; rfl, by rw [afterDigits_digit]⟩

theorem runC_iso_dash {d : Date} (h : d.Real) (r : Str) (t : Cm) :
    DateOk isoC (digits2 d.day ++ '-' :: (digits2 d.month ++ '-' :: (digits4 d.year ++ r))) r t := by
  obtain ⟨h1, h2, h3, h4⟩ := real_bounds h
  have e := chronoYear2 (n := d.day) (by omega) ('-' :: (digits2 d.month ++ '-' :: (digits4 d.year ++ r)))
    (by intro c s e; injection e with e _; rw [← e]; rfl)
  have e2 : runC isoC (digits2 d.day ++ '-' :: (digits2 d.month ++ '-' :: (digits4 d.year ++ r))) {} =
      runC [.day] (digits4 d.year ++ r) { year := some d.day, month := some d.month } := by
    simp [isoC, runC, CDir.run, e, chrono2 h1 h2 (by omega)]
  unfold DateOk
  rw [e2]
  simp only [digits4, List.cons_append, List.nil_append, runC, CDir.run]
  rcases chrono_two 1 31 (d.year / 1000) (d.year / 100) (digitChar (d.year / 10) :: digitChar d.year :: r) with e | ⟨v, e⟩
  · left; simp [e]
  · right; right
    exact ⟨d.year / 10, digitChar d.year :: r, _, by simp [e]; rfl, by rw [afterDigits_digit]⟩

/-- Another separator. -/
theorem runC_other_sep (n : Nat) {c : Char} (hc : c.isDigit = false) (r : Str) :
    (c ≠ '-' → runC isoC (digits2 n ++ c :: r) {} = none) ∧
      ∀ c' y, c'.isDigit = false → c ≠ c' → runC (dmyC c' y) (digits2 n ++ c :: r) {} = none := by
  have ha : afterDigits (digits2 n ++ c :: r) = some c := by rw [afterDigits_digits2, afterDigits_other hc]
  constructor
  · intro h
    exact runC_num_lit_fail rfl (by decide) _ _ (digits2_head _ _) (by rw [ha]; simpa using h)
  · intro c' y h1 h2
    exact runC_num_lit_fail rfl h1 _ _ (digits2_head _ _) (by rw [ha]; simpa using h2)

theorem mem_dateC {dd : List CDir} (h : dd ∈ dateC) :
    dd = isoC ∨ ∃ c, (c = '/' ∨ c = '.' ∨ c = '-') ∧ (dd = dmyC c .year4 ∨ dd = dmyC c .year2) := by
  simp only [dateC, List.mem_cons, List.not_mem_nil, or_false] at h
  rcases h with rfl | rfl | rfl | rfl | rfl | rfl | rfl
  · exact Or.inl rfl
  all_goals right
  · exact ⟨'/', by simp, Or.inl rfl⟩
  · exact ⟨'/', by simp, Or.inr rfl⟩
  · exact ⟨'.', by simp, Or.inl rfl⟩
  · exact ⟨'.', by simp, Or.inr rfl⟩
  · exact ⟨'-', by simp, Or.inl rfl⟩
  · exact ⟨'-', by simp, Or.inr rfl⟩

/-- The format of a style. -/
def styleC : DateStyle → List CDir
  | .iso => isoC
  | st => dmyC st.sep .year4

theorem styleC_mem (st : DateStyle) : styleC st ∈ dateC := by cases st <;> simp [styleC, dateC, DateStyle.sep]

theorem runC_style {d : Date} (hd : d.Real) (hy : d.year < 10000) (st : DateStyle) (r : Str) :
    runC (styleC st) (st.write d ++ r) {} = some (r, dateFields d.year d.month d.day) := by
  cases st with
  | iso => exact runC_iso hd hy r
  | slash => simpa [styleC, DateStyle.write, DateStyle.sep] using runC_dmy hd hy '/' r
  | dot => simpa [styleC, DateStyle.write, DateStyle.sep] using runC_dmy hd hy '.' r
  | dash => simpa [styleC, DateStyle.write, DateStyle.sep] using runC_dmy hd hy '-' r

theorem dateOk {d : Date} (hd : d.Real) (hy : d.year < 10000) (st : DateStyle) (r : Str) {dd : List CDir} (hdd : dd ∈ dateC) :
    DateOk dd (st.write d ++ r) r (dateFields d.year d.month d.day) := by
  rcases mem_dateC hdd with rfl | ⟨c, hc, hdd⟩
  · cases st with
    | iso => exact Or.inr (Or.inl (runC_iso hd hy r))
    | slash =>
      simp only [DateStyle.write, DateStyle.sep, List.append_assoc, List.cons_append]
      exact Or.inl ((runC_other_sep d.day (c := '/') (by decide) _).1 (by decide))
    | dot =>
      simp only [DateStyle.write, DateStyle.sep, List.append_assoc, List.cons_append]
      exact Or.inl ((runC_other_sep d.day (c := '.') (by decide) _).1 (by decide))
    | dash =>
      simp only [DateStyle.write, DateStyle.sep, List.append_assoc, List.cons_append]
      exact runC_iso_dash hd r _
  · have hcd := sep_facts c hc
    cases st with
    | iso =>
      left
      simp only [DateStyle.write, List.append_assoc, List.cons_append]
      rcases hdd with rfl | rfl <;> exact dateOk_iso_dmy c hcd _ _ _
    | slash =>
      simp only [DateStyle.write, DateStyle.sep, List.append_assoc, List.cons_append]
      by_cases e : '/' = c
      · subst e
        rcases hdd with rfl | rfl
        · exact Or.inr (Or.inl (runC_dmy hd hy _ r))
        · exact runC_dmy2 hd _ r _
      · left
        rcases hdd with rfl | rfl <;> exact (runC_other_sep d.day (by decide) _).2 _ _ hcd e
    | dot =>
      simp only [DateStyle.write, DateStyle.sep, List.append_assoc, List.cons_append]
      by_cases e : '.' = c
      · subst e
        rcases hdd with rfl | rfl
        · exact Or.inr (Or.inl (runC_dmy hd hy _ r))
        · exact runC_dmy2 hd _ r _
      · left
        rcases hdd with rfl | rfl <;> exact (runC_other_sep d.day (by decide) _).2 _ _ hcd e
    | dash =>
      simp only [DateStyle.write, DateStyle.sep, List.append_assoc, List.cons_append]
      by_cases e : '-' = c
      · subst e
        rcases hdd with rfl | rfl
        · exact Or.inr (Or.inl (runC_dmy hd hy _ r))
        · exact runC_dmy2 hd _ r _
      · left
        rcases hdd with rfl | rfl <;> exact (runC_other_sep d.day (by decide) _).2 _ _ hcd e

/-- The formats for a time alone on a text that begins with a date. -/
theorem times_on_date (st : DateStyle) (d : Date) (r : Str) {td : List CDir} (h : td ∈ timeC) :
    runC td (st.write d ++ r) {} = none := by
  have hs : ∀ c t, st.write d ++ r = c :: t → cSpace c = false := by
    intro c t e
    cases st <;> simp only [DateStyle.write, digits2, digits4, List.cons_append] at e <;>
      (injection e with e _; rw [← e]; exact digitChar_space _)
  have ha : afterDigits (st.write d ++ r) ≠ some ':' := by
    cases st <;> simp only [DateStyle.write, DateStyle.sep, List.append_assoc, List.cons_append, afterDigits_digits2,
      afterDigits_digits4] <;> rw [afterDigits_other (by decide)] <;> decide
  simp only [timeC, List.mem_cons, List.not_mem_nil, or_false] at h
  rcases h with rfl | rfl | rfl | rfl | rfl <;> exact runC_num_lit_fail rfl (by decide) _ _ hs ha

theorem civilMonth_eq (y m : Nat) (h1 : 1 ≤ m) (h2 : m ≤ 12) : civilMonth y m = daysInMonth y m := by
  have : leapYear y = decide ((y % 4 = 0 ∧ y % 100 ≠ 0) ∨ y % 400 = 0) := by
    rw [leapYear, Bool.eq_iff_iff]; simp
  interval_cases m <;> simp [civilMonth, daysInMonth, this]

theorem civilDate_real {d : Date} (h : d.Real) : civilDate d.year d.month d.day = some (daysFromCivil d.year d.month d.day) := by
  obtain ⟨h1, h2, h3, h4⟩ := real_bounds h
  have := h.2.2.2
  rw [civilDate, civilMonth_eq _ _ h1 h2, if_pos]
  exact ⟨h1, h2, h3, by obtain ⟨_, _, _, k⟩ := h; exact k⟩

/-- A text that begins with a date: what all the formats make of it. -/
theorem date_text_value {st : DateStyle} {d : Date} (hd : d.Real) (hy : d.year < 10000) {r : Str} {x : Int}
    (hr : afterDigits r ≠ some ':') (hsuf : ∀ sd ∈ suffixC, SuffixOk r (dateFields d.year d.month d.day) x sd)
    (hex : ∃ sd ∈ suffixC, polarsValue (styleC st ++ sd) (st.write d ++ r) = some x) :
    mfElem polarsStrptime (defaultFormats timeFormatsPolars) (some (st.write d ++ r)) = timeOfDay x := by
  refine polars_value ?_ ?_ ?_
  · intro dd hdd sd hsd
    have happ := runC_append dd sd (st.write d ++ r) {}
    rcases dateOk hd hy st r hdd with e | e | ⟨k, r', t', e, ha⟩
    · left; apply value_nomatch; intro t; rw [happ, e]; simp
    · rcases hsuf sd hsd with h | ⟨u, h, h', h''⟩
      · left; apply value_nomatch; intro t; rw [happ, e]; exact h t
      · have hrun : runC (dd ++ sd) (st.write d ++ r) {} = some ([], u) := by rw [happ, e]; exact h
        have hpv : polarsValue (dd ++ sd) (st.write d ++ r) =
            (if fixedMatch (dd ++ sd) (st.write d ++ r) then u.fast else none).or u.chrono := by
          rw [polarsValue, hrun]
        by_cases hf : fixedMatch (dd ++ sd) (st.write d ++ r) = true
        · right
          rw [hpv, if_pos hf, h'' (fun c hc => fixed_plain hf c (by simp [hc]))]; rfl
        · rw [if_neg hf] at hpv
          rcases h' with h' | h' <;> rw [h'] at hpv
          · right; exact hpv
          · left; exact hpv
    · left; apply value_nomatch; intro t; rw [happ, e]
      exact suffix_digit t' (by rw [ha]; exact hr) sd hsd t
  · intro td htd
    left; apply value_nomatch; intro t; rw [times_on_date st d r htd]; simp
  · obtain ⟨sd, hsd, h⟩ := hex
    exact Or.inl ⟨styleC st, styleC_mem st, sd, hsd, h⟩

theorem digit_cons (n : Nat) (r : Str) : ∃ k s, digits2 n ++ r = digitChar k :: s := ⟨_, _, rfl⟩

/-- A date and a time. -/
theorem date_time_value {st : DateStyle} {d : Date} (hd : d.Real) (hy : d.year < 10000) {sep : Char}
    (hsep : sep = ' ' ∨ sep = 'T') {X : Str} (hX : ∃ n s, X = digitChar n :: s) {x : Int}
    (ht : TimesOk X (dateFields d.year d.month d.day) x) :
    mfElem polarsStrptime (defaultFormats timeFormatsPolars) (some (st.write d ++ sep :: X)) = timeOfDay x := by
  obtain ⟨h1, sd, hsd, u, h2, h3, h4⟩ := suffix_of_times hX ht hsep
  refine date_text_value hd hy ?_ h1 ⟨sd, hsd, ?_⟩
  · rcases hsep with rfl | rfl <;> rw [afterDigits_other (by decide)] <;> decide
  · have hrun : runC (styleC st ++ sd) (st.write d ++ sep :: X) {} = some ([], u) := by
      rw [runC_append, runC_style hd hy]; exact h2
    rw [polarsValue, hrun]
    simp only
    by_cases hf : fixedMatch (styleC st ++ sd) (st.write d ++ sep :: X) = true
    · rw [if_pos hf, h4 (fun c hc => fixed_plain hf c (by simp [hc]))]; rfl
    · rw [if_neg hf, h3]; rfl

/-- A date alone. -/
theorem date_only_value {st : DateStyle} {d : Date} (hd : d.Real) (hy : d.year < 10000) :
    mfElem polarsStrptime (defaultFormats timeFormatsPolars) (some (st.write d)) =
      timeOfDay (daysFromCivil d.year d.month d.day * 86400000) := by
  have hD := civilDate_real hd
  have := date_text_value (st := st) (r := []) hd hy (by simp [afterDigits]) (suffix_nothing hD) ?_
  · rwa [List.append_nil] at this
  · refine ⟨[], by simp [suffixC], ?_⟩
    have hrun := runC_style hd hy st []
    have hf : fixedMatch (styleC st) (st.write d) = true := by
      cases st <;> simp [styleC, isoC, dmyC, DateStyle.write, DateStyle.sep, fixedMatch, digits2, digits4, digitChar_isDigit]
    rw [List.append_nil] at hrun ⊢
    rw [List.append_nil, polarsValue, hrun]
    simp only
    rw [if_pos hf]
    simp [Cm.fast, dateFields, hD]

/-- A time alone. -/
theorem time_only_value {b : Bool} {c : Clock} (hc : c.Real) (hs : b = false → c.second = 0) :
    mfElem polarsStrptime (defaultFormats timeFormatsPolars) (some (c.write b)) = c.millis := by
  have hw : ∃ r, c.write b = digits2 c.hour ++ ':' :: r := by cases b <;> simp [Clock.write]
  obtain ⟨r, hr⟩ := hw
  have ho := runC_other_sep c.hour (c := ':') (by decide) r
  rw [← hr] at ho
  have hdate : ∀ dd ∈ dateC, ∀ sd ∈ suffixC, polarsValue (dd ++ sd) (c.write b) = none := by
    intro dd hdd sd hsd
    apply value_nomatch
    intro t
    have : runC dd (c.write b) {} = none := by
      rcases mem_dateC hdd with rfl | ⟨x, hx, rfl | rfl⟩
      · exact ho.1 (by decide)
      · exact ho.2 x _ (sep_facts x hx) (by rcases hx with rfl | rfl | rfl <;> decide)
      · exact ho.2 x _ (sep_facts x hx) (by rcases hx with rfl | rfl | rfl <;> decide)
    rw [runC_append, this]; simp
  have hcl := clock_lt hc
  obtain ⟨h1, h2, h3⟩ := hc
  have a1 := chrono2' (lo := 0) (hi := 23) (n := c.hour) (by omega) (by omega) (by omega)
  have a2 := chrono2' (lo := 0) (hi := 59) (n := c.minute) (by omega) (by omega) (by omega)
  have a3 := chrono2' (lo := 0) (hi := 60) (n := c.second) (by omega) (by omega) (by omega)
  have a4 := hour12_maybe h1
  have hD : civilDate 1 1 1 = some (daysFromCivil 1 1 1) := by decide
  have hval : timeOfDay (daysFromCivil 1 1 1 * 86400000 + (c.millis : Int)) = c.millis :=
    timeOfDay_old (by decide) (by omega) (by omega)
  rw [← hval]
  cases b with
  | true =>
    have e1 : polarsValue hmsC (c.write true) = some (daysFromCivil 1 1 1 * 86400000 + (c.millis : Int)) := by
      simp [polarsValue, hmsC, Clock.write, digits2, runC, CDir.run, a1, a2, a3, fixedMatch, digitChar_isDigit, Cm.fast, hD,
        Clock.millis, h3]
    refine polars_value (fun dd h sd h' => Or.inl (hdate dd h sd h')) ?_ (Or.inr ⟨hmsC, by simp [timeC], e1⟩)
    intro td htd
    simp only [timeC, List.mem_cons, List.not_mem_nil, or_false] at htd
    rcases htd with rfl | rfl | rfl | rfl | rfl
    · exact Or.inr e1
    · left; apply value_nomatch; intro u; simp [hmC, Clock.write, digits2, runC, CDir.run, a1, a2, a3]
    · left; apply value_nomatch; intro u
      rcases a4 (':' :: digitChar (c.minute / 10) :: digitChar c.minute :: ':' :: digitChar (c.second / 10) ::
        digitChar c.second :: []) with e | e <;>
        simp [hms12C, Clock.write, digits2, runC, CDir.run, a2, a3, cSpace_facts, chronoAmPm] at e ⊢ <;>
        simp [e, a2, a3, cSpace_facts, chronoAmPm]
    · left; apply value_nomatch; intro u
      rcases a4 (':' :: digitChar (c.minute / 10) :: digitChar c.minute :: ':' :: digitChar (c.second / 10) ::
        digitChar c.second :: []) with e | e <;>
        simp [hm12C, Clock.write, digits2, runC, CDir.run, a2, a3, cSpace_facts, ampm_other] at e ⊢ <;>
        simp [e, a2, a3, cSpace_facts, ampm_other]
    · left
      simp [polarsValue, hmsfC, Clock.write, digits2, runC, CDir.run, a1, a2, a3, chronoFrac, fixedMatch, Cm.chrono,
        Cm.date]
  | false =>
    have hs := hs rfl
    have e1 : polarsValue hmC (c.write false) = some (daysFromCivil 1 1 1 * 86400000 + (c.millis : Int)) := by
      simp [polarsValue, hmC, Clock.write, digits2, runC, CDir.run, a1, a2, fixedMatch, digitChar_isDigit, Cm.fast, hD,
        Clock.millis, hs]
    refine polars_value (fun dd h sd h' => Or.inl (hdate dd h sd h')) ?_ (Or.inr ⟨hmC, by simp [timeC], e1⟩)
    intro td htd
    simp only [timeC, List.mem_cons, List.not_mem_nil, or_false] at htd
    rcases htd with rfl | rfl | rfl | rfl | rfl
    · left; apply value_nomatch; intro u; simp [hmsC, Clock.write, digits2, runC, CDir.run, a1, a2]
    · exact Or.inr e1
    · left; apply value_nomatch; intro u
      rcases a4 (':' :: digitChar (c.minute / 10) :: digitChar c.minute :: []) with e | e <;>
        simp [hms12C, Clock.write, digits2, runC, CDir.run, a2, cSpace_facts, chronoAmPm] at e ⊢ <;>
        simp [e, a2, cSpace_facts, chronoAmPm]
    · left; apply value_nomatch; intro u
      rcases a4 (':' :: digitChar (c.minute / 10) :: digitChar c.minute :: []) with e | e <;>
        simp [hm12C, Clock.write, digits2, runC, CDir.run, a2, cSpace_facts, chronoAmPm] at e ⊢ <;>
        simp [e, a2, cSpace_facts, chronoAmPm]
    · left; apply value_nomatch; intro u; simp [hmsfC, Clock.write, digits2, runC, CDir.run, a1, a2]

end Rxls
