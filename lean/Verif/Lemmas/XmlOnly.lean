import Verif.Lemmas.XmlText

/-! # What the parser accepts is a document -/

namespace Rxls

variable {pieces : Str → List Str}

/-- The rest of a document, from a state on. -/
def Completes (pieces : Str → List Str) (st : XState) (s : Str) : Prop := (st.run pieces s).complete = true

theorem fin_dead {st : XState} (hm : st.mode = .dead) : ∀ s : Str, ¬ Completes pieces st s := by
  intro s
  have key : ∀ (s : Str) (st : XState), st.mode = .dead → (st.run pieces s).mode = .dead := by
    intro s
    induction s with
    | nil => intro st h; exact h
    | cons c s ih =>
      intro st h
      rw [xmlRun_cons]
      apply ih
      unfold XState.step
      split
      · simp only [XState.char, h]
      · rfl
  intro h
  unfold Completes XState.complete at h
  rw [key s st hm] at h
  cases h

theorem fin_cons {st : XState} {c : Char} {s : Str} (h : Completes pieces st (c :: s)) :
    xmlChar c = true ∧ Completes pieces (st.char pieces c) s := by
  unfold Completes at h
  rw [xmlRun_cons] at h
  cases hc : xmlChar c
  · exfalso
    unfold XState.step at h
    rw [hc] at h
    exact fin_dead (pieces := pieces) (st := { st with mode := .dead }) rfl s h
  · rw [step_ok hc] at h
    exact ⟨rfl, h⟩

theorem fin_chars : ∀ (s : Str) (st : XState), Completes pieces st s → Chars s
  | [], _, _ => by simp [Chars]
  | c :: s, st, h => by
    obtain ⟨h1, h2⟩ := fin_cons h
    intro x hx
    rcases List.mem_cons.mp hx with rfl | hx
    · exact h1
    · exact fin_chars s _ h2 x hx

theorem fin_nil {st : XState} (h : Completes pieces st []) : (∃ k, st.mode = .content k) ∧ st.stack = [] ∧ st.done = true := by
  unfold Completes XState.complete at h
  rw [xmlRun_nil] at h
  split at h
  · rename_i k hm
    simp only [Bool.and_eq_true, List.isEmpty_iff] at h
    exact ⟨⟨k, hm⟩, h⟩
  · cases h

/-! ## References -/

theorem digit_small : ∀ n < 128, (∀ d, digitVal 10 (Char.ofNat n) = some d → d < 10 ∧ Nat.digitChar d = Char.ofNat n) ∧
    ∀ d, digitVal 16 (Char.ofNat n) = some d → d < 16 ∧ ∃ u, hexChar u d = Char.ofNat n := by
  have key : ∀ n < 128, ((digitVal 10 (Char.ofNat n)).all fun d => d < 10 && Nat.digitChar d == Char.ofNat n) = true ∧
      ((digitVal 16 (Char.ofNat n)).all fun d => d < 16 && (hexChar false d == Char.ofNat n || hexChar true d == Char.ofNat n))
        = true := by decide +kernel
  intro n hn
  obtain ⟨h1, h2⟩ := key n hn
  refine ⟨fun d hd => ?_, fun d hd => ?_⟩
  · rw [hd] at h1
    simpa using h1
  · rw [hd] at h2
    simp only [Option.all_some, Bool.and_eq_true, decide_eq_true_eq, Bool.or_eq_true, beq_iff_eq] at h2
    exact ⟨h2.1, h2.2.elim (fun h => ⟨_, h⟩) (fun h => ⟨_, h⟩)⟩

theorem digitVal_small {b : Nat} {c : Char} {d : Nat} (h : digitVal b c = some d) : c.toNat < 128 := by
  by_contra hc
  have h9 : ¬ c ≤ '9' := fun e => by
    have : c.toNat ≤ 57 := e
    omega
  have hf : ¬ c ≤ 'f' := fun e => by
    have : c.toNat ≤ 102 := e
    omega
  have hF : ¬ c ≤ 'F' := fun e => by
    have : c.toNat ≤ 70 := e
    omega
  simp [digitVal, h9, hf, hF] at h

theorem digitVal_dec {c : Char} {d : Nat} (h : digitVal 10 c = some d) : d < 10 ∧ Nat.digitChar d = c := by
  have := (digit_small _ (digitVal_small h)).1 d
  rw [Char.ofNat_toNat] at this
  exact this h

theorem digitVal_hex {c : Char} {d : Nat} (h : digitVal 16 c = some d) : d < 16 ∧ ∃ u, hexChar u d = c := by
  have := (digit_small _ (digitVal_small h)).2 d
  rw [Char.ofNat_toNat] at this
  exact this h

theorem numVal_dec : ∀ (s : Str) (acc n : Nat), numVal 10 acc s = some n →
    ∃ ds : List Nat, s = ds.map Nat.digitChar ∧ (∀ d ∈ ds, d < 10) ∧ n = ds.foldl (fun a d => a * 10 + d) acc
  | [], acc, n, h => ⟨[], rfl, by simp, by simpa [numVal] using h.symm⟩
  | c :: s, acc, n, h => by
    unfold numVal at h
    cases hd : digitVal 10 c with
    | none => rw [hd] at h; cases h
    | some d =>
      rw [hd] at h
      obtain ⟨ds, rfl, h2, h3⟩ := numVal_dec s _ n h
      obtain ⟨h4, h5⟩ := digitVal_dec hd
      exact ⟨d :: ds, by simp [h5], by simpa [h4] using h2, h3⟩

theorem numVal_hex_inv : ∀ (s : Str) (acc n : Nat), numVal 16 acc s = some n →
    ∃ ds : List (Bool × Nat), s = ds.map (fun d => hexChar d.1 d.2) ∧ (∀ d ∈ ds, d.2 < 16) ∧
      n = (ds.map (·.2)).foldl (fun a d => a * 16 + d) acc
  | [], acc, n, h => ⟨[], rfl, by simp, by simpa [numVal] using h.symm⟩
  | c :: s, acc, n, h => by
    unfold numVal at h
    cases hd : digitVal 16 c with
    | none => rw [hd] at h; cases h
    | some d =>
      rw [hd] at h
      obtain ⟨ds, rfl, h2, h3⟩ := numVal_hex_inv s _ n h
      obtain ⟨h4, u, h5⟩ := digitVal_hex hd
      refine ⟨(u, d) :: ds, by simp [h5], ?_, h3⟩
      intro x hx
      rcases List.mem_cons.mp hx with rfl | hx
      · exact h4
      · exact h2 x hx

theorem charRef_some {n : Nat} {x : Char} (h : charRef n = some x) : CharNum n ∧ x = Char.ofNat n := by
  unfold charRef at h
  split at h
  · rename_i hn
    exact ⟨hn, (Option.some.inj h).symm⟩
  · cases h

/-- A reference with a meaning is written correctly. -/
theorem entity_form {r : Str} {x : Char} (h : entity r = some x) (stop : List Char) :
    ∃ f : CForm, f.Ok stop ∧ (∀ c, f ≠ .raw c) ∧ f.text = '&' :: (r ++ [';']) ∧ f.char = x := by
  unfold entity at h
  by_cases h1 : r = ['l', 't']
  · rw [if_pos h1] at h
    cases h
    exact ⟨.named '<', by simp [CForm.Ok], by simp, by rw [h1]; rfl, rfl⟩
  rw [if_neg h1] at h
  by_cases h2 : r = ['g', 't']
  · rw [if_pos h2] at h
    cases h
    exact ⟨.named '>', by simp [CForm.Ok], by simp, by rw [h2]; rfl, rfl⟩
  rw [if_neg h2] at h
  by_cases h3 : r = ['a', 'm', 'p']
  · rw [if_pos h3] at h
    cases h
    exact ⟨.named '&', by simp [CForm.Ok], by simp, by rw [h3]; rfl, rfl⟩
  rw [if_neg h3] at h
  by_cases h4 : r = ['q', 'u', 'o', 't']
  · rw [if_pos h4] at h
    cases h
    exact ⟨.named '"', by simp [CForm.Ok], by simp, by rw [h4]; rfl, rfl⟩
  rw [if_neg h4] at h
  by_cases h5 : r = ['a', 'p', 'o', 's']
  · rw [if_pos h5] at h
    cases h
    exact ⟨.named '\'', by simp [CForm.Ok], by simp, by rw [h5]; rfl, rfl⟩
  rw [if_neg h5] at h
  split at h
  · rename_i c cs
    cases hn : numVal 16 0 (c :: cs) with
    | none => rw [hn] at h; cases h
    | some n =>
      rw [hn] at h
      obtain ⟨g1, rfl⟩ := charRef_some h
      obtain ⟨ds, e, g2, rfl⟩ := numVal_hex_inv _ _ _ hn
      refine ⟨.hex ds, ⟨?_, g2, g1⟩, by simp, by simp [CForm.text, e], rfl⟩
      rintro rfl
      cases e
  · rename_i c cs _
    cases hn : numVal 10 0 (c :: cs) with
    | none => rw [hn] at h; cases h
    | some n =>
      rw [hn] at h
      obtain ⟨g1, rfl⟩ := charRef_some h
      obtain ⟨ds, e, g2, rfl⟩ := numVal_dec _ _ _ hn
      refine ⟨.dec ds, ⟨?_, g2, g1⟩, by simp, by simp [CForm.text, e], rfl⟩
      rintro rfl
      cases e
  · cases h

theorem ref_inv : ∀ (s : Str) (st : XState) (r : Str), st.mode = .ref r → Completes pieces st s →
    ∃ b s' x, s = b ++ ';' :: s' ∧ entity (r ++ b) = some x ∧
      Completes pieces { st with mode := .content 0, text := st.text ++ [x] } s'
  | [], st, r, hm, h => by
    obtain ⟨⟨k, hk⟩, -⟩ := fin_nil h
    rw [hm] at hk; cases hk
  | c :: s, st, r, hm, h => by
    obtain ⟨-, hf⟩ := fin_cons h
    simp only [XState.char, hm] at hf
    by_cases hc : c = ';'
    · rw [if_pos hc] at hf
      cases he : entity r with
      | none => rw [he] at hf; exact absurd hf (fin_dead rfl s)
      | some x =>
        rw [he] at hf
        exact ⟨[], s, x, by simp [hc], by simpa using he, hf⟩
    · rw [if_neg hc] at hf
      obtain ⟨b, s', x, rfl, he, hf⟩ := ref_inv s _ (r ++ [c]) rfl hf
      exact ⟨c :: b, s', x, rfl, by simpa using he, hf⟩

theorem attRef_inv : ∀ (s : Str) (st : XState) (n : Str) (as : List (Str × Str)) (a : Str) (q : Char) (v r : Str),
    st.mode = .attRef n as a q v r → Completes pieces st s →
    ∃ b s' x, s = b ++ ';' :: s' ∧ entity (r ++ b) = some x ∧
      Completes pieces { st with mode := .attVal n as a q (v ++ [x]) } s'
  | [], st, n, as, a, q, v, r, hm, h => by
    obtain ⟨⟨k, hk⟩, -⟩ := fin_nil h
    rw [hm] at hk; cases hk
  | c :: s, st, n, as, a, q, v, r, hm, h => by
    obtain ⟨-, hf⟩ := fin_cons h
    simp only [XState.char, hm] at hf
    by_cases hc : c = ';'
    · rw [if_pos hc] at hf
      cases he : entity r with
      | none => rw [he] at hf; exact absurd hf (fin_dead rfl s)
      | some x =>
        rw [he] at hf
        exact ⟨[], s, x, by simp [hc], by simpa using he, hf⟩
    · rw [if_neg hc] at hf
      obtain ⟨b, s', x, rfl, he, hf⟩ := attRef_inv s _ n as a q v (r ++ [c]) rfl hf
      exact ⟨c :: b, s', x, rfl, by simpa using he, hf⟩

/-! ## Attributes -/

theorem attVal_inv (m : Nat) : ∀ (s : Str) (st : XState) (n : Str) (as : List (Str × Str)) (a : Str) (q : Char) (v : Str),
    s.length ≤ m → st.mode = .attVal n as a q v → Completes pieces st s →
    ∃ (fs : List CForm) (s' : Str), s = fs.flatMap CForm.text ++ q :: s' ∧ (∀ f ∈ fs, f.Ok [q]) ∧ a ∉ as.map (·.1) ∧
      Completes pieces { st with mode := .inTag n (as ++ [(a, v ++ fs.map CForm.attChar)]) false } s' := by
  induction m with
  | zero =>
    intro s st n as a q v hl hm h
    have : s = [] := List.length_eq_zero_iff.mp (by omega)
    subst this
    obtain ⟨⟨k, hk⟩, -⟩ := fin_nil h
    rw [hm] at hk; cases hk
  | succ m ih =>
    intro s st n as a q v hl hm h
    cases s with
    | nil =>
      obtain ⟨⟨k, hk⟩, -⟩ := fin_nil h
      rw [hm] at hk; cases hk
    | cons c s =>
      have hl : s.length ≤ m := by simpa using hl
      obtain ⟨hx, hf⟩ := fin_cons h
      simp only [XState.char, hm] at hf
      by_cases hq : c = q
      · rw [if_pos hq] at hf
        by_cases ha : (as.map (·.1)).contains a = true
        · rw [if_pos ha] at hf
          exact absurd hf (fin_dead rfl s)
        · rw [if_neg ha] at hf
          refine ⟨[], s, by simp [hq], by simp, by simpa using ha, by simpa using hf⟩
      rw [if_neg hq] at hf
      by_cases hlt : c = '<'
      · rw [if_pos hlt] at hf
        exact absurd hf (fin_dead rfl s)
      rw [if_neg hlt] at hf
      by_cases ham : c = '&'
      · rw [if_pos ham] at hf
        obtain ⟨b, s', x, rfl, he, hf⟩ := attRef_inv s _ n as a q v [] rfl hf
        obtain ⟨f, f1, f2, f3, f4⟩ := entity_form he [q]
        obtain ⟨fs, s'', rfl, g1, g2, g3⟩ := ih s' _ n as a q (v ++ [x]) (by simp at hl; omega) rfl hf
        have f5 : f.attChar = x := by
          cases f with
          | raw c => exact absurd rfl (f2 c)
          | _ => exact f4
        refine ⟨f :: fs, s'', ?_, ?_, g2, ?_⟩
        · rw [List.flatMap_cons, f3, ham]
          simp
        · intro y hy
          rcases List.mem_cons.mp hy with rfl | hy
          · exact f1
          · exact g1 y hy
        · simpa [f5] using g3
      rw [if_neg ham] at hf
      obtain ⟨fs, s', rfl, g1, g2, g3⟩ := ih s _ n as a q _ hl rfl hf
      refine ⟨.raw c :: fs, s', rfl, ?_, g2, ?_⟩
      · intro y hy
        rcases List.mem_cons.mp hy with rfl | hy
        · exact ⟨hx, hlt, ham, by simpa using hq⟩
        · exact g1 y hy
      · simpa [CForm.attChar] using g3

theorem attQuote_inv : ∀ (s : Str) (st : XState) (n : Str) (as : List (Str × Str)) (a : Str),
    st.mode = .attQuote n as a → Completes pieces st s →
    ∃ (ws : Str) (sg : Bool) (fs : List CForm) (s' : Str), s = ws ++ (bif sg then '\'' else '"') :: (fs.flatMap CForm.text ++ (bif sg then '\'' else '"') :: s') ∧
      Spaces ws ∧ (∀ f ∈ fs, f.Ok [bif sg then '\'' else '"']) ∧ a ∉ as.map (·.1) ∧
      Completes pieces { st with mode := .inTag n (as ++ [(a, fs.map CForm.attChar)]) false } s'
  | [], st, n, as, a, hm, h => by
    obtain ⟨⟨k, hk⟩, -⟩ := fin_nil h
    rw [hm] at hk; cases hk
  | c :: s, st, n, as, a, hm, h => by
    obtain ⟨-, hf⟩ := fin_cons h
    simp only [XState.char, hm] at hf
    by_cases hc : xmlWs c = true
    · rw [if_pos hc] at hf
      obtain ⟨ws, sg, fs, s', rfl, h1, h2, h3, h4⟩ := attQuote_inv s st n as a hm hf
      refine ⟨c :: ws, sg, fs, s', rfl, ?_, h2, h3, h4⟩
      intro y hy
      rcases List.mem_cons.mp hy with rfl | hy
      · exact hc
      · exact h1 y hy
    rw [if_neg hc] at hf
    by_cases hq : c = '"' ∨ c = '\''
    · rw [if_pos hq] at hf
      obtain ⟨fs, s', rfl, h1, h2, h3⟩ := attVal_inv _ s _ n as a c [] (le_refl _) rfl hf
      rcases hq with rfl | rfl
      · exact ⟨[], false, fs, s', rfl, by simp [Spaces], h1, h2, h3⟩
      · exact ⟨[], true, fs, s', rfl, by simp [Spaces], h1, h2, h3⟩
    · rw [if_neg hq] at hf
      exact absurd hf (fin_dead rfl s)

theorem attEq_inv : ∀ (s : Str) (st : XState) (n : Str) (as : List (Str × Str)) (a : Str),
    st.mode = .attEq n as a → Completes pieces st s →
    ∃ ws s', s = ws ++ '=' :: s' ∧ Spaces ws ∧ Completes pieces { st with mode := .attQuote n as a } s'
  | [], st, n, as, a, hm, h => by
    obtain ⟨⟨k, hk⟩, -⟩ := fin_nil h
    rw [hm] at hk; cases hk
  | c :: s, st, n, as, a, hm, h => by
    obtain ⟨-, hf⟩ := fin_cons h
    simp only [XState.char, hm] at hf
    by_cases hc : xmlWs c = true
    · rw [if_pos hc] at hf
      obtain ⟨ws, s', rfl, h1, h2⟩ := attEq_inv s st n as a hm hf
      refine ⟨c :: ws, s', rfl, ?_, h2⟩
      intro y hy
      rcases List.mem_cons.mp hy with rfl | hy
      · exact hc
      · exact h1 y hy
    rw [if_neg hc] at hf
    by_cases hq : c = '='
    · rw [if_pos hq] at hf
      exact ⟨[], s, by simp [hq], by simp [Spaces], hf⟩
    · rw [if_neg hq] at hf
      exact absurd hf (fin_dead rfl s)

theorem attName_inv : ∀ (s : Str) (st : XState) (n : Str) (as : List (Str × Str)) (a : Str),
    st.mode = .attName n as a → Completes pieces st s →
    ∃ r ws s', s = r ++ (ws ++ '=' :: s') ∧ (∀ c ∈ r, nameChar c = true ∧ xmlChar c = true) ∧ Spaces ws ∧
      Completes pieces { st with mode := .attQuote n as (a ++ r) } s'
  | [], st, n, as, a, hm, h => by
    obtain ⟨⟨k, hk⟩, -⟩ := fin_nil h
    rw [hm] at hk; cases hk
  | c :: s, st, n, as, a, hm, h => by
    obtain ⟨hx, hf⟩ := fin_cons h
    simp only [XState.char, hm] at hf
    by_cases hn : nameChar c = true
    · rw [if_pos hn] at hf
      obtain ⟨r, ws, s', rfl, h1, h2, h3⟩ := attName_inv s _ n as (a ++ [c]) rfl hf
      refine ⟨c :: r, ws, s', rfl, ?_, h2, by simpa using h3⟩
      intro y hy
      rcases List.mem_cons.mp hy with rfl | hy
      · exact ⟨hn, hx⟩
      · exact h1 y hy
    rw [if_neg hn] at hf
    by_cases hc : xmlWs c = true
    · rw [if_pos hc] at hf
      obtain ⟨ws, s', rfl, h1, h2⟩ := attEq_inv s _ n as a rfl hf
      refine ⟨[], c :: ws, s', rfl, by simp, ?_, by simpa using h2⟩
      intro y hy
      rcases List.mem_cons.mp hy with rfl | hy
      · exact hc
      · exact h1 y hy
    rw [if_neg hc] at hf
    by_cases hq : c = '='
    · rw [if_pos hq] at hf
      exact ⟨[], [], s, by simp [hq], by simp, by simp [Spaces], by simpa using hf⟩
    · rw [if_neg hq] at hf
      exact absurd hf (fin_dead rfl s)

/-! ## Tags -/

/-- The end of a tag. -/
def tagEnd (e : Bool) : Str := bif e then ['/', '>'] else ['>']

/-- The state after a tag. -/
def XState.after (pieces : Str → List Str) (st : XState) (e : Bool) (n : Str) (as : List (Str × Str)) : XState :=
  bif e then st.empty pieces n as else st.start pieces n as

theorem after_mode (st : XState) (m : XMode) (e : Bool) (n : Str) (as : List (Str × Str)) :
    ({ st with mode := m } : XState).after pieces e n as = st.after pieces e n as := by
  cases e <;> rfl

theorem slash_inv (s : Str) (st : XState) (n : Str) (as : List (Str × Str)) (hm : st.mode = .slash n as)
    (h : Completes pieces st s) : ∃ s', s = '>' :: s' ∧ Completes pieces (st.after pieces true n as) s' := by
  cases s with
  | nil =>
    obtain ⟨⟨k, hk⟩, -⟩ := fin_nil h
    rw [hm] at hk; cases hk
  | cons c s =>
    obtain ⟨-, hf⟩ := fin_cons h
    simp only [XState.char, hm] at hf
    by_cases hc : c = '>'
    · rw [if_pos hc] at hf
      exact ⟨s, by rw [hc], hf⟩
    · rw [if_neg hc] at hf
      exact absurd hf (fin_dead rfl s)

/-- After the name of a tag, with white space `w0` read. -/
theorem inTag_inv (m : Nat) : ∀ (s : Str) (st : XState) (n : Str) (as : List (Str × Str)) (w0 : Str),
    s.length ≤ m → st.mode = .inTag n as (!w0.isEmpty) → Spaces w0 → (as.map (·.1)).Nodup → Completes pieces st s →
    ∃ (xs : List AttForm) (ws : Str) (e : Bool) (s' : Str), w0 ++ s = xs.flatMap AttForm.text ++ (ws ++ (tagEnd e ++ s')) ∧ (∀ x ∈ xs, x.Ok) ∧ Spaces ws ∧
      ((as.map (·.1)) ++ xs.map AttForm.name).Nodup ∧ Completes pieces (st.after pieces e n (as ++ xs.map AttForm.pair)) s' := by
  induction m with
  | zero =>
    intro s st n as w0 hl hm _ _ h
    have : s = [] := List.length_eq_zero_iff.mp (by omega)
    subst this
    obtain ⟨⟨k, hk⟩, -⟩ := fin_nil h
    rw [hm] at hk; cases hk
  | succ m ih =>
    intro s st n as w0 hl hm hw hnd h
    cases s with
    | nil =>
      obtain ⟨⟨k, hk⟩, -⟩ := fin_nil h
      rw [hm] at hk; cases hk
    | cons c s =>
      have hl : s.length ≤ m := by simpa using hl
      obtain ⟨hx, hf⟩ := fin_cons h
      simp only [XState.char, hm] at hf
      by_cases hc : xmlWs c = true
      · rw [if_pos hc] at hf
        obtain ⟨xs, ws, e, s', h1, h2, h3, h4, h5⟩ := ih s { st with mode := .inTag n as true } n as (w0 ++ [c]) hl
          (by simp) (by
            intro y hy
            rcases List.mem_append.mp hy with hy | hy
            · exact hw y hy
            · rw [List.mem_singleton.mp hy]; exact hc) hnd hf
        rw [after_mode] at h5
        exact ⟨xs, ws, e, s', by rw [← h1]; simp, h2, h3, h4, h5⟩
      rw [if_neg hc] at hf
      by_cases hsl : c = '/'
      · rw [if_pos hsl] at hf
        obtain ⟨s', rfl, h5⟩ := slash_inv s _ n as rfl hf
        rw [after_mode] at h5
        exact ⟨[], w0, true, s', by simp [tagEnd, hsl], by simp, hw, by simpa using hnd, by simpa using h5⟩
      rw [if_neg hsl] at hf
      by_cases hgt : c = '>'
      · rw [if_pos hgt] at hf
        exact ⟨[], w0, false, s, by simp [tagEnd, hgt], by simp, hw, by simpa using hnd, by simpa [XState.after] using hf⟩
      rw [if_neg hgt] at hf
      by_cases hn : (!w0.isEmpty) = true ∧ nameStart c = true
      · rw [if_pos hn] at hf
        obtain ⟨hw0, hns⟩ := hn
        obtain ⟨r, ws1, s1, rfl, g1, g2, hf⟩ := attName_inv s _ n as [c] rfl hf
        obtain ⟨ws2, sg, fs, s2, rfl, g3, g4, g5, hf⟩ := attQuote_inv s1 _ n as _ rfl hf
        have hl2 : s2.length ≤ m := by simp at hl; omega
        obtain ⟨xs, ws, e, s', h1, h2, h3, h4, h5⟩ := ih s2 _ n _ [] hl2 (by rfl) (by simp [Spaces]) (by
          rw [List.map_append, List.map_cons, List.map_nil]
          refine List.nodup_append.mpr ⟨hnd, by simp, ?_⟩
          rintro y hy z hz rfl
          rw [List.mem_singleton] at hz
          exact g5 (by rw [hz] at hy; exact hy)) hf
        rw [after_mode, after_mode, after_mode] at h5
        rw [List.nil_append] at h1
        refine ⟨⟨w0, [c] ++ r, ws1, ws2, sg, fs⟩ :: xs, ws, e, s', ?_, ?_, h3, ?_, ?_⟩
        · rw [List.flatMap_cons, h1]
          cases sg <;> simp [AttForm.text, AttForm.quote]
        · intro x hx
          rcases List.mem_cons.mp hx with rfl | hx
          · refine ⟨⟨hw, by simpa using hw0⟩, ⟨⟨c, r, rfl, hns⟩, ?_⟩, ⟨g2, g3⟩, ?_⟩
            · intro y hy
              rcases List.mem_append.mp hy with hy | hy
              · rw [List.mem_singleton.mp hy]
                exact ⟨nameStart_name hns, by assumption⟩
              · exact g1 y hy
            · cases sg <;> exact g4
          · exact h2 x hx
        · simpa using h4
        · simpa [AttForm.pair] using h5
      · rw [if_neg hn] at hf
        exact absurd hf (fin_dead rfl s)

theorem openName_inv : ∀ (s : Str) (st : XState) (n : Str), st.mode = .openName n → Completes pieces st s →
    ∃ (r : Str) (xs : List AttForm) (ws : Str) (e : Bool) (s' : Str), s = r ++ (xs.flatMap AttForm.text ++ (ws ++ (tagEnd e ++ s'))) ∧
      (∀ c ∈ r, nameChar c = true ∧ xmlChar c = true) ∧ AttrsOk xs ∧ Spaces ws ∧
      Completes pieces (st.after pieces e (n ++ r) (xs.map AttForm.pair)) s'
  | [], st, n, hm, h => by
    obtain ⟨⟨k, hk⟩, -⟩ := fin_nil h
    rw [hm] at hk; cases hk
  | c :: s, st, n, hm, h => by
    obtain ⟨hx, hf⟩ := fin_cons h
    simp only [XState.char, hm] at hf
    by_cases hn : nameChar c = true
    · rw [if_pos hn] at hf
      obtain ⟨r, xs, ws, e, s', rfl, h1, h2, h3, h4⟩ := openName_inv s _ (n ++ [c]) rfl hf
      rw [after_mode] at h4
      refine ⟨c :: r, xs, ws, e, s', rfl, ?_, h2, h3, by simpa using h4⟩
      intro y hy
      rcases List.mem_cons.mp hy with rfl | hy
      · exact ⟨hn, hx⟩
      · exact h1 y hy
    rw [if_neg hn] at hf
    by_cases hc : xmlWs c = true
    · rw [if_pos hc] at hf
      obtain ⟨xs, ws, e, s', h1, h2, h3, h4, h5⟩ := inTag_inv _ s _ n [] [c] (le_refl _) (by rfl) (by
        intro y hy
        rw [List.mem_singleton.mp hy]; exact hc) (by simp) hf
      rw [after_mode] at h5
      exact ⟨[], xs, ws, e, s', by simpa using h1, by simp, ⟨h2, by simpa using h4⟩, h3, by simpa using h5⟩
    rw [if_neg hc] at hf
    by_cases hsl : c = '/'
    · rw [if_pos hsl] at hf
      obtain ⟨s', rfl, h5⟩ := slash_inv s _ n [] rfl hf
      rw [after_mode] at h5
      exact ⟨[], [], [], true, s', by simp [tagEnd, hsl], by simp, ⟨by simp, by simp⟩, by simp [Spaces], by simpa using h5⟩
    rw [if_neg hsl] at hf
    by_cases hgt : c = '>'
    · rw [if_pos hgt] at hf
      exact ⟨[], [], [], false, s, by simp [tagEnd, hgt], by simp, ⟨by simp, by simp⟩, by simp [Spaces],
        by simpa [XState.after] using hf⟩
    · rw [if_neg hgt] at hf
      exact absurd hf (fin_dead rfl s)

/-- The end tag of the innermost element. -/
theorem close_inv {st : XState} {n s : Str} (h : Completes pieces (st.close pieces n) s) :
    ∃ rest, st.stack = n :: rest ∧
      Completes pieces ⟨.content 0, rest, rest.isEmpty, [], st.events ++ textEvents pieces st.text ++ [.close n]⟩ s := by
  unfold XState.close at h
  cases e : st.stack with
  | nil => rw [e] at h; exact absurd h (fin_dead rfl s)
  | cons t r =>
    rw [e] at h
    simp only at h
    by_cases ht : t = n
    · rw [if_pos ht] at h
      exact ⟨r, by rw [ht], h⟩
    · rw [if_neg ht] at h
      exact absurd h (fin_dead rfl s)

theorem closeWs_inv : ∀ (s : Str) (st : XState) (n : Str), st.mode = .closeWs n → Completes pieces st s →
    ∃ ws s', s = ws ++ '>' :: s' ∧ Spaces ws ∧ ∃ m, Completes pieces (({ st with mode := m } : XState).close pieces n) s'
  | [], st, n, hm, h => by
    obtain ⟨⟨k, hk⟩, -⟩ := fin_nil h
    rw [hm] at hk; cases hk
  | c :: s, st, n, hm, h => by
    obtain ⟨-, hf⟩ := fin_cons h
    simp only [XState.char, hm] at hf
    by_cases hc : xmlWs c = true
    · rw [if_pos hc] at hf
      obtain ⟨ws, s', rfl, h1, h2⟩ := closeWs_inv s st n hm hf
      refine ⟨c :: ws, s', rfl, ?_, h2⟩
      intro y hy
      rcases List.mem_cons.mp hy with rfl | hy
      · exact hc
      · exact h1 y hy
    rw [if_neg hc] at hf
    by_cases hgt : c = '>'
    · rw [if_pos hgt] at hf
      exact ⟨[], s, by simp [hgt], by simp [Spaces], st.mode, hf⟩
    · rw [if_neg hgt] at hf
      exact absurd hf (fin_dead rfl s)

theorem closeName_inv : ∀ (s : Str) (st : XState) (n : Str), st.mode = .closeName n → Completes pieces st s →
    ∃ r ws s', s = r ++ (ws ++ '>' :: s') ∧ Spaces ws ∧
      ∃ m, Completes pieces (({ st with mode := m } : XState).close pieces (n ++ r)) s'
  | [], st, n, hm, h => by
    obtain ⟨⟨k, hk⟩, -⟩ := fin_nil h
    rw [hm] at hk; cases hk
  | c :: s, st, n, hm, h => by
    obtain ⟨-, hf⟩ := fin_cons h
    simp only [XState.char, hm] at hf
    by_cases hn : nameChar c = true
    · rw [if_pos hn] at hf
      obtain ⟨r, ws, s', rfl, h1, m, h2⟩ := closeName_inv s _ (n ++ [c]) rfl hf
      exact ⟨c :: r, ws, s', rfl, h1, m, by simpa using h2⟩
    rw [if_neg hn] at hf
    by_cases hc : xmlWs c = true
    · rw [if_pos hc] at hf
      obtain ⟨ws, s', rfl, h1, m, h2⟩ := closeWs_inv s _ n rfl hf
      refine ⟨[], c :: ws, s', rfl, ?_, m, by simpa using h2⟩
      intro y hy
      rcases List.mem_cons.mp hy with rfl | hy
      · exact hc
      · exact h1 y hy
    rw [if_neg hc] at hf
    by_cases hgt : c = '>'
    · rw [if_pos hgt] at hf
      exact ⟨[], [], s, by simp [hgt], by simp [Spaces], st.mode, by simpa using hf⟩
    · rw [if_neg hgt] at hf
      exact absurd hf (fin_dead rfl s)

/-! ## Comments, processing instructions, CDATA sections -/

theorem comment_inv : ∀ (s : Str) (st : XState) (d : Nat), d ≤ 2 → st.mode = .comment d → Completes pieces st s →
    ∃ b s', List.replicate d '-' ++ s = b ++ '-' :: '-' :: '>' :: s' ∧ ¬ ['-', '-'] <:+: b ++ ['-'] ∧
      Completes pieces { st with mode := .content 0 } s'
  | [], st, d, _, hm, h => by
    obtain ⟨⟨k, hk⟩, -⟩ := fin_nil h
    rw [hm] at hk; cases hk
  | c :: s, st, d, hd, hm, h => by
    obtain ⟨-, hf⟩ := fin_cons h
    simp only [XState.char, hm] at hf
    by_cases hc : c = '-'
    · rw [if_pos hc] at hf
      by_cases h2 : d = 2
      · rw [if_pos h2] at hf
        exact absurd hf (fin_dead rfl s)
      · rw [if_neg h2] at hf
        obtain ⟨b, s', h3, h4, h5⟩ := comment_inv s _ (d + 1) (by omega) rfl hf
        refine ⟨b, s', ?_, h4, h5⟩
        rw [← h3, hc, List.replicate_succ']
        simp
    rw [if_neg hc] at hf
    by_cases h2 : d = 2
    · rw [if_pos h2] at hf
      by_cases hgt : c = '>'
      · rw [if_pos hgt] at hf
        refine ⟨[], s, by rw [h2, hgt]; rfl, ?_, hf⟩
        intro hi
        have := hi.length_le
        simp at this
      · rw [if_neg hgt] at hf
        exact absurd hf (fin_dead rfl s)
    · rw [if_neg h2] at hf
      obtain ⟨b, s', h3, h4, h5⟩ := comment_inv s _ 0 (by omega) rfl hf
      have h3 : s = b ++ '-' :: '-' :: '>' :: s' := by simpa using h3
      refine ⟨List.replicate d '-' ++ c :: b, s', by rw [h3]; simp, ?_, h5⟩
      have hc' : '-' ≠ c := fun e => hc e.symm
      have : d = 0 ∨ d = 1 := by omega
      rcases this with rfl | rfl
      · simpa [List.infix_cons_iff, List.prefix_cons_iff, hc'] using h4
      · simpa [List.replicate_succ, List.infix_cons_iff, List.prefix_cons_iff, hc'] using h4

theorem piData_inv : ∀ (s : Str) (st : XState) (q : Bool), st.mode = .piData q → Completes pieces st s →
    ∃ b s', (bif q then ['?'] else []) ++ s = b ++ '?' :: '>' :: s' ∧ ¬ ['?', '>'] <:+: b ∧
      Completes pieces { st with mode := .content 0 } s'
  | [], st, d, hm, h => by
    obtain ⟨⟨k, hk⟩, -⟩ := fin_nil h
    rw [hm] at hk; cases hk
  | c :: s, st, q, hm, h => by
    obtain ⟨-, hf⟩ := fin_cons h
    simp only [XState.char, hm] at hf
    by_cases hq : q = true ∧ c = '>'
    · rw [if_pos hq] at hf
      refine ⟨[], s, by rw [hq.1, hq.2]; rfl, ?_, hf⟩
      intro hi
      have := hi.length_le
      simp at this
    · rw [if_neg hq] at hf
      obtain ⟨b, s', h1, h2, h3⟩ := piData_inv s _ (c == '?') rfl hf
      by_cases hc : c = '?'
      · have h1 : '?' :: s = b ++ '?' :: '>' :: s' := by simpa [hc] using h1
        refine ⟨(bif q then ['?'] else []) ++ b, s', by rw [hc, h1]; simp, ?_, h3⟩
        cases q
        · simpa using h2
        · simp only [cond_true, List.cons_append, List.nil_append]
          rw [List.infix_cons_iff]
          rintro (hi | hi)
          · -- `b` starts with a question mark, if at all
            cases b with
            | nil => simp at hi
            | cons x b =>
              simp only [List.cons_append, List.cons.injEq] at h1
              rw [← h1.1] at hi
              simp at hi
          · exact h2 hi
      · have h1 : s = b ++ '?' :: '>' :: s' := by
          have : (c == '?') = false := by simpa using hc
          rw [this] at h1
          simpa using h1
        refine ⟨(bif q then ['?'] else []) ++ c :: b, s', by rw [h1]; simp, ?_, h3⟩
        have hc' : '?' ≠ c := fun e => hc e.symm
        cases q
        · simpa [List.infix_cons_iff, List.prefix_cons_iff, hc'] using h2
        · have : '>' ≠ c := fun e => hq ⟨rfl, e.symm⟩
          simpa [List.infix_cons_iff, List.prefix_cons_iff, hc', this] using h2

theorem pi_inv : ∀ (s : Str) (st : XState) (t : Str), st.mode = .piName t → t ≠ [] → Completes pieces st s →
    ∃ r b s', s = r ++ (b ++ '?' :: '>' :: s') ∧ (∀ c ∈ r, nameChar c = true ∧ xmlChar c = true) ∧
      (t ++ r).map Char.toLower ≠ ['x', 'm', 'l'] ∧ (∀ c u, b = c :: u → xmlWs c = true) ∧ ¬ ['?', '>'] <:+: b ∧
      Completes pieces { st with mode := .content 0 } s'
  | [], st, t, hm, _, h => by
    obtain ⟨⟨k, hk⟩, -⟩ := fin_nil h
    rw [hm] at hk; cases hk
  | c :: s, st, t, hm, ht, h => by
    obtain ⟨hx, hf⟩ := fin_cons h
    simp only [XState.char, hm] at hf
    rw [if_neg ht] at hf
    by_cases hn : nameChar c = true
    · rw [if_pos hn] at hf
      obtain ⟨r, b, s', rfl, h1, h2, h3, h4, h5⟩ := pi_inv s _ (t ++ [c]) rfl (by simp) hf
      refine ⟨c :: r, b, s', rfl, ?_, by simpa using h2, h3, h4, h5⟩
      intro y hy
      rcases List.mem_cons.mp hy with rfl | hy
      · exact ⟨hn, hx⟩
      · exact h1 y hy
    rw [if_neg hn] at hf
    by_cases hxml : isXmlTarget t = true
    · rw [if_pos hxml] at hf
      exact absurd hf (fin_dead rfl s)
    rw [if_neg hxml] at hf
    have hx' : (t ++ []).map Char.toLower ≠ ['x', 'm', 'l'] := by
      rw [List.append_nil]
      simpa [isXmlTarget] using hxml
    by_cases hq : c = '?'
    · rw [if_pos hq] at hf
      cases s with
      | nil =>
        obtain ⟨⟨k, hk⟩, -⟩ := fin_nil hf
        cases hk
      | cons d s =>
        obtain ⟨-, hf⟩ := fin_cons hf
        simp only [XState.char] at hf
        by_cases hd : d = '>'
        · rw [if_pos hd] at hf
          exact ⟨[], [], s, by simp [hq, hd], by simp, hx', by simp, by simp, hf⟩
        · rw [if_neg hd] at hf
          exact absurd hf (fin_dead rfl s)
    rw [if_neg hq] at hf
    by_cases hw : xmlWs c = true
    · rw [if_pos hw] at hf
      obtain ⟨b, s', h1, h2, h3⟩ := piData_inv s _ false rfl hf
      have h1 : s = b ++ '?' :: '>' :: s' := by simpa using h1
      refine ⟨[], c :: b, s', by rw [h1]; rfl, by simp, hx', ?_, ?_, h3⟩
      · intro d u e
        simp only [List.cons.injEq] at e
        rw [← e.1]; exact hw
      · have hc' : '?' ≠ c := fun e => hq e.symm
        simpa [List.infix_cons_iff, List.prefix_cons_iff, hc'] using h2
    · rw [if_neg hw] at hf
      exact absurd hf (fin_dead rfl s)

theorem cdata_inv : ∀ (s : Str) (st : XState) (rev : Str), st.mode = .cdata rev → ¬ [']', ']', '>'] <:+: rev.reverse →
    Completes pieces st s →
    ∃ b s', rev.reverse ++ s = b ++ ']' :: ']' :: '>' :: s' ∧ ¬ [']', ']', '>'] <:+: b ∧
      Completes pieces { st with mode := .content 0, text := st.text ++ b } s'
  | [], st, d, hm, _, h => by
    obtain ⟨⟨k, hk⟩, -⟩ := fin_nil h
    rw [hm] at hk; cases hk
  | c :: s, st, rev, hm, hr, h => by
    obtain ⟨-, hf⟩ := fin_cons h
    simp only [XState.char, hm] at hf
    split at hf
    · rename_i r
      refine ⟨r.reverse, s, by simp, ?_, hf⟩
      intro hi
      exact hr (hi.trans ⟨[], [']', ']'], by simp⟩)
    · rename_i hne
      obtain ⟨b, s', h1, h2, h3⟩ := cdata_inv s _ (c :: rev) rfl (by
        intro hi
        rw [List.reverse_cons] at hi
        rcases (List.infix_concat_iff (l₁ := [']', ']', '>'])).mp hi with hs | hi
        · obtain ⟨u, hu⟩ := hs
          have h2 : (u ++ [']', ']']) ++ ['>'] = rev.reverse ++ [c] := by simpa using hu
          obtain ⟨h3, h4⟩ := List.append_inj' h2 rfl
          have h5 : rev = ']' :: ']' :: u.reverse := by
            rw [← List.reverse_reverse rev, ← h3]; simp
          exact hne u.reverse (by simpa using h4.symm) h5
        · exact hr hi) hf
      exact ⟨b, s', by rw [← h1]; simp, h2, h3⟩

/-! ## Pieces -/

/-- What follows `<`: a tag, an end tag, a CDATA section, or something without events. -/
theorem lt_inv (s : Str) (st : XState) (hm : st.mode = .lt) (h : Completes pieces st s) :
    (∃ t xs ws e s', '<' :: s = (bif e then Piece.empty t xs ws else .start t xs ws).text ++ s' ∧ XmlName t ∧ AttrsOk xs ∧
      Spaces ws ∧ (st.stack = [] → st.done = false) ∧ Completes pieces (st.after pieces e t (xs.map AttForm.pair)) s') ∨
    (∃ t ws rest s', '<' :: s = (Piece.close t ws).text ++ s' ∧ Spaces ws ∧ st.stack = t :: rest ∧
      Completes pieces ⟨.content 0, rest, rest.isEmpty, [], st.events ++ textEvents pieces st.text ++ [.close t]⟩ s') ∨
    (∃ b s', '<' :: s = (Piece.cdata b).text ++ s' ∧ (Piece.cdata b).Ok ∧ st.stack ≠ [] ∧
      Completes pieces { st with mode := .content 0, text := st.text ++ b } s') ∨
    (∃ (a : Aside) (s' : Str), '<' :: s = a.text ++ s' ∧ a.Ok ∧ Completes pieces { st with mode := .content 0 } s') := by
  have hch := fin_chars s st h
  cases s with
  | nil =>
    obtain ⟨⟨k, hk⟩, -⟩ := fin_nil h
    rw [hm] at hk; cases hk
  | cons c s =>
    obtain ⟨hx, hf⟩ := fin_cons h
    simp only [XState.char, hm] at hf
    by_cases h1 : c = '/'
    · rw [if_pos h1] at hf
      obtain ⟨r, ws, s', rfl, g1, m, g2⟩ := closeName_inv s _ [] rfl hf
      obtain ⟨rest, g3, g4⟩ := close_inv g2
      exact .inr (.inl ⟨r, ws, rest, s', by simp [Piece.text, h1], g1, g3, g4⟩)
    rw [if_neg h1] at hf
    by_cases h2 : c = '!'
    · rw [if_pos h2] at hf
      -- one character after the other
      have bang : ∀ (s : Str) (st : XState) (w : Str), st.mode = .bang w → Completes pieces st s →
          ∃ d s', s = d :: s' ∧
            ((w ++ [d] = kwComment ∧ Completes pieces { st with mode := .comment 0 } s') ∨
             (w ++ [d] = kwCdata ∧ st.stack ≠ [] ∧ Completes pieces { st with mode := .cdata [] } s') ∨
             ((w ++ [d] <+: kwComment ∨ w ++ [d] <+: kwCdata) ∧ w ++ [d] ≠ kwComment ∧ w ++ [d] ≠ kwCdata ∧
                Completes pieces { st with mode := .bang (w ++ [d]) } s')) := by
        intro s st w hm h
        cases s with
        | nil =>
          obtain ⟨⟨k, hk⟩, -⟩ := fin_nil h
          rw [hm] at hk; cases hk
        | cons d s =>
          obtain ⟨-, hf⟩ := fin_cons h
          simp only [XState.char, hm] at hf
          refine ⟨d, s, rfl, ?_⟩
          by_cases k1 : w ++ [d] = kwComment
          · rw [if_pos k1] at hf
            exact .inl ⟨k1, hf⟩
          rw [if_neg k1] at hf
          by_cases k2 : w ++ [d] = kwCdata
          · rw [if_pos k2] at hf
            by_cases k3 : st.stack = []
            · rw [if_pos k3] at hf
              exact absurd hf (fin_dead rfl s)
            · rw [if_neg k3] at hf
              exact .inr (.inl ⟨k2, k3, hf⟩)
          rw [if_neg k2] at hf
          by_cases k3 : ((w ++ [d]).isPrefixOf kwComment || (w ++ [d]).isPrefixOf kwCdata) = true
          · rw [if_pos k3] at hf
            refine .inr (.inr ⟨?_, k1, k2, hf⟩)
            simpa using k3
          · rw [if_neg k3] at hf
            exact absurd hf (fin_dead rfl s)
      have full : ∀ (n : Nat) (s : Str) (st : XState) (w : Str), 7 - w.length ≤ n → w.length < 7 →
          st.mode = .bang w → Completes pieces st s →
          (∃ s', w ++ s = kwComment ++ s' ∧ Completes pieces { st with mode := .comment 0 } s') ∨
          (∃ s', w ++ s = kwCdata ++ s' ∧ st.stack ≠ [] ∧ Completes pieces { st with mode := .cdata [] } s') := by
        intro n
        induction n with
        | zero => intro s st w hn hw; omega
        | succ n ih =>
          intro s st w hn hw hm h
          obtain ⟨d, s', rfl, hcase⟩ := bang s st w hm h
          rcases hcase with ⟨k1, k2⟩ | ⟨k1, k2, k3⟩ | ⟨k1, k2, k3, k4⟩
          · exact .inl ⟨s', by rw [← k1]; simp, k2⟩
          · exact .inr ⟨s', by rw [← k1]; simp, k2, k3⟩
          · have hlt : (w ++ [d]).length < 7 := by
              rcases k1 with k1 | k1
              · have := k1.length_le
                simp [kwComment] at this ⊢
                omega
              · have := k1.length_le
                have hne : (w ++ [d]).length ≠ kwCdata.length := fun e => k3 (k1.eq_of_length e)
                simp [kwCdata] at this hne ⊢
                omega
            have := ih s' { st with mode := .bang (w ++ [d]) } (w ++ [d]) (by simp; omega) hlt rfl k4
            simpa using this
      rcases full 7 s _ [] (by simp) (by simp) rfl hf with ⟨s', g1, g2⟩ | ⟨s', g1, g2, g3⟩
      · rw [List.nil_append] at g1
        subst g1
        obtain ⟨b, s'', g3, g4, g5⟩ := comment_inv s' _ 0 (by omega) rfl g2
        have g3 : s' = b ++ '-' :: '-' :: '>' :: s'' := by simpa using g3
        subst g3
        refine .inr (.inr (.inr ⟨.comment b, s'', by simp [Aside.text, kwComment, h2], ⟨?_, g4⟩, g5⟩))
        intro y hy
        exact hch y (by simp [hy])
      · rw [List.nil_append] at g1
        subst g1
        obtain ⟨b, s'', g4, g5, g6⟩ := cdata_inv s' _ [] rfl (by simp) g3
        have g4 : s' = b ++ ']' :: ']' :: '>' :: s'' := by simpa using g4
        subst g4
        refine .inr (.inr (.inl ⟨b, s'', by simp [Piece.text, kwCdata, h2], ⟨?_, g5⟩, g2, g6⟩))
        intro y hy
        exact hch y (by simp [hy])
    rw [if_neg h2] at hf
    by_cases h3 : c = '?'
    · rw [if_pos h3] at hf
      cases s with
      | nil =>
        obtain ⟨⟨k, hk⟩, -⟩ := fin_nil hf
        cases hk
      | cons d s =>
        obtain ⟨hx', hf⟩ := fin_cons hf
        simp only [XState.char, if_true] at hf
        by_cases k1 : nameStart d = true
        · rw [if_pos k1] at hf
          obtain ⟨r, b, s', rfl, g1, g2, g3, g4, g5⟩ := pi_inv s _ [d] rfl (by simp) hf
          refine .inr (.inr (.inr ⟨.pi (d :: r) b, s', by simp [Aside.text, h3], ⟨⟨⟨d, r, rfl, k1⟩, ?_⟩, by simpa using g2, ?_,
            g3, g4⟩, g5⟩))
          · intro y hy
            rcases List.mem_cons.mp hy with rfl | hy
            · exact ⟨nameStart_name k1, hx'⟩
            · exact g1 y hy
          · intro y hy
            exact hch y (by simp [hy])
        · rw [if_neg k1] at hf
          exact absurd hf (fin_dead rfl s)
    rw [if_neg h3] at hf
    by_cases h4 : nameStart c = true
    · rw [if_pos h4] at hf
      by_cases h5 : st.stack = [] ∧ st.done = true
      · rw [if_pos h5] at hf
        exact absurd hf (fin_dead rfl s)
      rw [if_neg h5] at hf
      obtain ⟨r, xs, ws, e, s', rfl, g1, g2, g3, g4⟩ := openName_inv s _ [c] rfl hf
      rw [after_mode] at g4
      refine .inl ⟨c :: r, xs, ws, e, s', ?_, ⟨⟨c, r, rfl, h4⟩, ?_⟩, g2, g3, ?_, g4⟩
      · cases e <;> simp [Piece.text, tagEnd]
      · intro y hy
        rcases List.mem_cons.mp hy with rfl | hy
        · exact ⟨nameStart_name h4, hx⟩
        · exact g1 y hy
      · intro hs
        cases hd : st.done
        · rfl
        · exact absurd ⟨hs, hd⟩ h5
    · rw [if_neg h4] at hf
      exact absurd hf (fin_dead rfl s)

/-- The rest of the root element. -/
theorem body_inv (n : Nat) : ∀ (s : Str) (st : XState) (k : Nat), s.length ≤ n → Completes pieces st s →
    st.mode = .content k → k ≤ 2 → st.stack ≠ [] → (∀ t ∈ st.stack, XmlName t) →
    ∃ (ps : List Piece) (s' : Str) (es : List Xml), s = ps.flatMap Piece.text ++ s' ∧ (∀ p ∈ ps, p.Ok) ∧
      Nested st.stack ps ∧ NoEnd k ps ∧ Completes pieces ⟨.content 0, [], true, [], es⟩ s' := by
  induction n with
  | zero =>
    intro s st k hl h hm hk hs hn
    have : s = [] := List.length_eq_zero_iff.mp (by omega)
    subst this
    exact absurd (fin_nil h).2.1 hs
  | succ n ih =>
    intro s st k hl h hm hk hs hn
    obtain ⟨t, rest, hst⟩ : ∃ t r, st.stack = t :: r := by
      cases e : st.stack with
      | nil => exact absurd e hs
      | cons t r => exact ⟨t, r, rfl⟩
    cases s with
    | nil => exact absurd (fin_nil h).2.1 hs
    | cons c s =>
      have hl : s.length ≤ n := by simpa using hl
      obtain ⟨hx, hf⟩ := fin_cons h
      simp only [XState.char, hm] at hf
      by_cases h1 : c = '<'
      · rw [if_pos h1] at hf
        subst h1
        rcases lt_inv s _ rfl hf with ⟨u, xs, ws, e, s', g1, g2, g3, g4, g5, g6⟩ | ⟨u, ws, rest', s', g1, g2, g3, g4⟩ |
          ⟨b, s', g1, g2, g3, g4⟩ | ⟨a, s', g1, g2, g3⟩
        · have hl' : s'.length ≤ n := by
            have := congrArg List.length g1
            cases e <;> simp [Piece.text] at this <;> omega
          rw [after_mode] at g6
          cases e with
          | false =>
            obtain ⟨ps, s'', es, rfl, k1, k2, k3, k4⟩ := ih s' _ 0 hl' g6 rfl (by omega) (by simp [XState.after, XState.start])
              (by
                intro y hy
                rcases List.mem_cons.mp hy with rfl | hy
                · exact g2
                · exact hn y hy)
            refine ⟨.start u xs ws :: ps, s'', es, ?_, ?_, ?_, k3, k4⟩
            · rw [g1]; simp
            · intro p hp
              rcases List.mem_cons.mp hp with rfl | hp
              · exact ⟨g2, g3, g4⟩
              · exact k1 p hp
            · have k2 : Nested (u :: st.stack) ps := k2
              rw [hst] at k2 ⊢
              exact k2
          | true =>
            have ee : st.after pieces true u (xs.map AttForm.pair) = ⟨.content 0, st.stack, false, [],
                st.events ++ textEvents pieces st.text ++ [.start u (xs.map AttForm.pair), .close u]⟩ := by
              simp [XState.after, XState.empty, XState.start, XState.close, textEvents, hst]
            rw [ee] at g6
            obtain ⟨ps, s'', es, rfl, k1, k2, k3, k4⟩ := ih s' _ 0 hl' g6 rfl (by omega) hs hn
            refine ⟨.empty u xs ws :: ps, s'', es, ?_, ?_, ?_, k3, k4⟩
            · rw [g1]; simp
            · intro p hp
              rcases List.mem_cons.mp hp with rfl | hp
              · exact ⟨g2, g3, g4⟩
              · exact k1 p hp
            · have k2 : Nested st.stack ps := k2
              rw [hst] at k2 ⊢
              exact k2
        · have g3 : st.stack = u :: rest' := g3
          have hu : XmlName u := hn u (by rw [g3]; simp)
          cases rest' with
          | nil =>
            refine ⟨[.close u ws], s', _, by rw [g1]; simp, ?_, ?_, trivial, g4⟩
            · intro p hp
              rw [List.mem_singleton.mp hp]
              exact ⟨hu, g2⟩
            · rw [g3]
              exact ⟨rfl, rfl⟩
          | cons y ys =>
            have hl' : s'.length ≤ n := by
              have := congrArg List.length g1
              simp [Piece.text] at this
              omega
            obtain ⟨ps, s'', es, rfl, k1, k2, k3, k4⟩ := ih s' _ 0 hl' g4 rfl (by omega) (by simp) (by
              intro z hz
              exact hn z (by rw [g3]; exact List.mem_cons_of_mem _ hz))
            refine ⟨.close u ws :: ps, s'', es, by rw [g1]; simp, ?_, ?_, k3, k4⟩
            · intro p hp
              rcases List.mem_cons.mp hp with rfl | hp
              · exact ⟨hu, g2⟩
              · exact k1 p hp
            · rw [g3]
              exact ⟨rfl, k2⟩
        · have hl' : s'.length ≤ n := by
            have := congrArg List.length g1
            simp [Piece.text] at this
            omega
          obtain ⟨ps, s'', es, rfl, k1, k2, k3, k4⟩ := ih s' _ 0 hl' g4 rfl (by omega) g3 hn
          refine ⟨.cdata b :: ps, s'', es, by rw [g1]; simp, ?_, ?_, k3, k4⟩
          · intro p hp
            rcases List.mem_cons.mp hp with rfl | hp
            · exact g2
            · exact k1 p hp
          · have k2 : Nested st.stack ps := k2
            rw [hst] at k2 ⊢
            exact k2
        · have hl' : s'.length ≤ n := by
            have := congrArg List.length g1
            cases a <;> simp [Aside.text] at this <;> omega
          obtain ⟨ps, s'', es, rfl, k1, k2, k3, k4⟩ := ih s' _ 0 hl' g3 rfl (by omega) hs hn
          refine ⟨.aside a :: ps, s'', es, by rw [g1]; simp [Piece.text], ?_, ?_, k3, k4⟩
          · intro p hp
            rcases List.mem_cons.mp hp with rfl | hp
            · exact g2
            · exact k1 p hp
          · have k2 : Nested st.stack ps := k2
            rw [hst] at k2 ⊢
            exact k2
      rw [if_neg h1, if_neg hs] at hf
      by_cases h2 : c = '&'
      · rw [if_pos h2] at hf
        obtain ⟨b, s', x, rfl, he, hf⟩ := ref_inv s _ [] rfl hf
        obtain ⟨f, f1, f2, f3, f4⟩ := entity_form he []
        have fa : afterChar k f = 0 := by
          cases f with
          | raw c => exact absurd rfl (f2 c)
          | _ => rfl
        obtain ⟨ps, s'', es, rfl, k1, k2, k3, k4⟩ := ih s' _ 0 (by simp at hl; omega) hf rfl (by omega) hs hn
        refine ⟨.char f :: ps, s'', es, ?_, ?_, ?_, ⟨fun e => f2 _ e.2, by rw [fa]; exact k3⟩, k4⟩
        · rw [List.flatMap_cons, Piece.text, f3, h2]
          simp
        · intro p hp
          rcases List.mem_cons.mp hp with rfl | hp
          · exact f1
          · exact k1 p hp
        · have k2 : Nested st.stack ps := k2
          rw [hst] at k2 ⊢
          exact k2
      rw [if_neg h2] at hf
      by_cases h3 : c = '>' ∧ k = 2
      · rw [if_pos h3] at hf
        exact absurd hf (fin_dead rfl s)
      rw [if_neg h3] at hf
      obtain ⟨ps, s'', es, rfl, k1, k2, k3, k4⟩ := ih s _ _ hl hf rfl (by split <;> omega) hs hn
      refine ⟨.char (.raw c) :: ps, s'', es, rfl, ?_, ?_, ⟨?_, k3⟩, k4⟩
      · intro p hp
        rcases List.mem_cons.mp hp with rfl | hp
        · exact ⟨hx, h1, h2, by simp⟩
        · exact k1 p hp
      · have k2 : Nested st.stack ps := k2
        rw [hst] at k2 ⊢
        exact k2
      · rintro ⟨e1, e2⟩
        exact h3 ⟨by simpa using e2, e1⟩

/-- What stands before the root element, or after it. -/
theorem misc_inv (n : Nat) : ∀ (s : Str) (st : XState) (k : Nat) (w0 : Str), s.length ≤ n → Completes pieces st s →
    st.mode = .content k → st.stack = [] → Spaces w0 →
    ∃ m : Misc, m.Ok ∧ ((w0 ++ s = m.text ∧ st.done = true) ∨
      ∃ t xs ws e s', w0 ++ s = m.text ++ ((bif e then Piece.empty t xs ws else .start t xs ws).text ++ s') ∧ XmlName t ∧
        AttrsOk xs ∧ Spaces ws ∧ st.done = false ∧ Completes pieces (st.after pieces e t (xs.map AttForm.pair)) s') := by
  induction n with
  | zero =>
    intro s st k w0 hl h hm hs hw
    have : s = [] := List.length_eq_zero_iff.mp (by omega)
    subst this
    exact ⟨⟨[], w0⟩, ⟨by simp, hw⟩, .inl ⟨by simp [Misc.text], (fin_nil h).2.2⟩⟩
  | succ n ih =>
    intro s st k w0 hl h hm hs hw
    cases s with
    | nil => exact ⟨⟨[], w0⟩, ⟨by simp, hw⟩, .inl ⟨by simp [Misc.text], (fin_nil h).2.2⟩⟩
    | cons c s =>
      have hl : s.length ≤ n := by simpa using hl
      obtain ⟨hx, hf⟩ := fin_cons h
      simp only [XState.char, hm] at hf
      by_cases h1 : c = '<'
      · rw [if_pos h1] at hf
        subst h1
        rcases lt_inv s _ rfl hf with ⟨u, xs, ws, e, s', g1, g2, g3, g4, g5, g6⟩ | ⟨u, ws, rest', s', g1, g2, g3, g4⟩ |
          ⟨b, s', g1, g2, g3, g4⟩ | ⟨a, s', g1, g2, g3⟩
        · rw [after_mode] at g6
          exact ⟨⟨[], w0⟩, ⟨by simp, hw⟩, .inr ⟨u, xs, ws, e, s', by rw [g1]; simp [Misc.text], g2, g3, g4, g5 hs, g6⟩⟩
        · rw [hs] at g3
          cases g3
        · exact absurd hs g3
        · have hl' : s'.length ≤ n := by
            have := congrArg List.length g1
            cases a <;> simp [Aside.text] at this <;> omega
          obtain ⟨m, k1, k2⟩ := ih s' _ 0 [] hl' g3 rfl hs (by simp [Spaces])
          have hmt : (⟨(w0, a) :: m.items, m.last⟩ : Misc).text = w0 ++ (a.text ++ m.text) := by simp [Misc.text]
          refine ⟨⟨(w0, a) :: m.items, m.last⟩, ⟨?_, k1.last⟩, ?_⟩
          · intro p hp
            rcases List.mem_cons.mp hp with rfl | hp
            · exact ⟨hw, g2⟩
            · exact k1.items p hp
          · rw [hmt, g1]
            simp only [List.nil_append] at k2
            rcases k2 with ⟨k2, k3⟩ | ⟨t, xs, ws, e, s'', k2, k3, k4, k5, k6, k7⟩
            · exact .inl ⟨by rw [k2], k3⟩
            · rw [after_mode] at k7
              exact .inr ⟨t, xs, ws, e, s'', by rw [k2]; simp, k3, k4, k5, k6, k7⟩
      rw [if_neg h1, if_pos hs] at hf
      by_cases h2 : xmlWs c = true
      · rw [if_pos h2] at hf
        obtain ⟨m, k1, k2⟩ := ih s st k (w0 ++ [c]) hl hf hm hs (by
          intro y hy
          rcases List.mem_append.mp hy with hy | hy
          · exact hw y hy
          · rw [List.mem_singleton.mp hy]; exact h2)
        refine ⟨m, k1, ?_⟩
        simpa using k2
      · rw [if_neg h2] at hf
        exact absurd hf (fin_dead rfl s)

/-- A text that the machine accepts is a document without a declaration. -/
theorem machine_only (s : Str) (h : (({} : XState).run pieces s).complete = true) :
    ∃ x : XmlForm, x.Ok ∧ x.decl = none ∧ x.text = s := by
  obtain ⟨m, h1, h2⟩ := misc_inv (pieces := pieces) _ s {} 0 [] (le_refl _) h rfl rfl (by simp [Spaces])
  simp only [List.nil_append] at h2
  rcases h2 with ⟨-, h2⟩ | ⟨t, xs, ws, e, s', h2, h3, h4, h5, -, h6⟩
  · cases h2
  cases e with
  | true =>
    have ee : ({} : XState).after pieces true t (xs.map AttForm.pair) = ⟨.content 0, [], true, [],
        [.start t (xs.map AttForm.pair), .close t]⟩ := by
      simp [XState.after, XState.empty, XState.start, XState.close, textEvents]
    rw [ee] at h6
    obtain ⟨m', k1, k2⟩ := misc_inv (pieces := pieces) _ s' _ 0 [] (le_refl _) h6 rfl rfl (by simp [Spaces])
    simp only [List.nil_append] at k2
    rcases k2 with ⟨k2, -⟩ | ⟨t, xs, ws, e, s', -, -, -, -, k2, -⟩
    · refine ⟨⟨none, m, [.empty t xs ws], m'⟩, ⟨by simp, h1, ?_, rfl, ?_, k1⟩, rfl, ?_⟩
      · intro p hp
        rw [List.mem_singleton.mp hp]
        exact ⟨h3, h4, h5⟩
      · intro hi
        have := hi.length_le
        simp at this
      · rw [h2, k2]
        simp [XmlForm.text, declText]
    · cases k2
  | false =>
    obtain ⟨ps, s'', es, rfl, k1, k2, k3, k4⟩ := body_inv (pieces := pieces) _ s' _ 0 (le_refl _) h6 rfl (by omega)
      (by simp [XState.after, XState.start]) (by
        intro y hy
        have : y = t := by simpa [XState.after, XState.start] using hy
        rw [this]; exact h3)
    obtain ⟨m', g1, g2⟩ := misc_inv (pieces := pieces) _ s'' _ 0 [] (le_refl _) k4 rfl rfl (by simp [Spaces])
    simp only [List.nil_append] at g2
    rcases g2 with ⟨g2, -⟩ | ⟨t, xs, ws, e, s', -, -, -, -, g2, -⟩
    · refine ⟨⟨none, m, .start t xs ws :: ps, m'⟩, ⟨by simp, h1, ?_, k2, ?_, g1⟩, rfl, ?_⟩
      · intro p hp
        rcases List.mem_cons.mp hp with rfl | hp
        · exact ⟨h3, h4, h5⟩
        · exact k1 p hp
      · have := (noEnd_iff ps 0 (by omega)).mp k3
        simpa [List.infix_cons_iff, List.prefix_cons_iff] using this
      · rw [h2, g2]
        simp [XmlForm.text, declText]
    · cases g2

/-! ## The declaration and the bytes -/

theorem afterPi_inv : ∀ (s t : Str), afterPi s = some t → ∃ u, s = u ++ '?' :: '>' :: t ∧ ¬ ['?', '>'] <:+: u
  | [], t, h => by cases h
  | c :: s, t, h => by
    unfold afterPi at h
    split at h
    · rename_i r
      rw [Option.some.inj h]
      exact ⟨[], rfl, by simp⟩
    · rename_i hne
      obtain ⟨u, hu, hi⟩ := afterPi_inv s t h
      refine ⟨c :: u, by rw [hu]; rfl, ?_⟩
      rw [List.infix_cons_iff]
      rintro (hp | hp)
      · rw [List.prefix_cons_iff] at hp
        rcases hp with hp | ⟨v, hv, hp⟩
        · cases hp
        · simp only [List.cons.injEq] at hv
          obtain ⟨hv1, rfl⟩ := hv
          obtain ⟨w, hw⟩ := hp
          rw [← hw] at hu
          exact hne _ hv1.symm (by rw [hu]; rfl)
      · exact hi hp

/-- A text that is accepted is a document. -/
theorem parse_only (s : Str) (h : (parseXml pieces s).bad = false) : ∃ x : XmlForm, x.Ok ∧ x.text = normEol s := by
  unfold parseXml at h
  cases hd : dropDecl (normEol s) with
  | none => rw [hd] at h; cases h
  | some t =>
    rw [hd] at h
    simp only [Bool.not_eq_false'] at h
    obtain ⟨x, h1, h2, h3⟩ := machine_only (pieces := pieces) t h
    generalize normEol s = u at hd
    unfold dropDecl at hd
    split at hd
    · rename_i c r
      by_cases hc : xmlWs c = true
      · rw [if_pos hc] at hd
        obtain ⟨w, rfl, hw⟩ := afterPi_inv _ _ hd
        refine ⟨{ x with decl := some (c :: w) }, ⟨?_, h1.pre, h1.body, h1.root, h1.brackets, h1.post⟩, ?_⟩
        · intro d hd
          cases hd
          refine ⟨⟨c, w, rfl, hc⟩, ?_⟩
          have hc' : '?' ≠ c := by
            rintro rfl
            revert hc
            decide
          simpa [List.infix_cons_iff, List.prefix_cons_iff, hc'] using hw
        · rw [← h3]
          simp [XmlForm.text, declText, h2]
      · rw [if_neg hc] at hd
        exact ⟨x, h1, by rw [h3]; exact (Option.some.inj hd).symm⟩
    · exact ⟨x, h1, by rw [h3]; exact (Option.some.inj hd).symm⟩

/-- Bytes that decode are the encoding of their characters. -/
theorem utf8Run_inv : ∀ (n : Nat) (b : Bytes) (s : Str), utf8Run n b = (s, true) → b = s.flatMap String.utf8EncodeChar
  | 0, b, s, h => by
    simp only [utf8Run, Prod.mk.injEq, List.isEmpty_iff] at h
    rw [← h.1, h.2]
    rfl
  | n + 1, b, s, h => by
    rw [utf8Run] at h
    by_cases hb : b.isEmpty = true
    · rw [if_pos hb] at h
      simp only [Prod.mk.injEq, and_true] at h
      rw [← h]
      simpa using hb
    · rw [if_neg hb] at h
      cases hd : (b.take 4).toByteArray.utf8DecodeChar? 0 with
      | none => rw [hd] at h; cases h
      | some c =>
        rw [hd] at h
        simp only [Prod.mk.injEq] at h
        obtain ⟨l, hl⟩ := ByteArray.exists_of_utf8DecodeChar?_eq_some hd
        have hl2 := congrArg (fun x => x.data.toList) hl
        simp only [ByteArray.data_append, Array.toList_append] at hl2
        have e1 : ∀ u : List UInt8, u.toByteArray.data.toList = u := by
          intro u
          simp
        rw [e1, e1] at hl2
        have ih := utf8Run_inv n (b.drop c.utf8Size) (utf8Run n (b.drop c.utf8Size)).1 (Prod.ext rfl h.2)
        have hlen := String.length_utf8EncodeChar c
        have hb2 : b = String.utf8EncodeChar c ++ (l.data.toList ++ b.drop 4) := by
          rw [← List.append_assoc, ← hl2, List.take_append_drop]
        rw [← h.1, List.flatMap_cons, ← ih]
        rw [← hlen]
        conv_lhs => rw [hb2]
        congr 1
        conv_rhs => rw [hb2]
        rw [List.drop_left]

end Rxls
