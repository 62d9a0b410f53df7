import Verif.Spec.XmlText

/-! # The XML machine on well-written pieces -/

namespace Rxls

variable {pieces : Str → List Str}

/-- The machine over a text. -/
abbrev XState.run (pieces : Str → List Str) (st : XState) (s : Str) : XState := s.foldl (XState.step pieces) st

theorem xmlRun_append (st : XState) (s t : Str) : st.run pieces (s ++ t) = (st.run pieces s).run pieces t :=
  List.foldl_append

theorem xmlRun_cons (st : XState) (c : Char) (t : Str) : st.run pieces (c :: t) = (st.step pieces c).run pieces t := rfl

theorem xmlRun_nil (st : XState) : st.run pieces [] = st := rfl

theorem step_ok {st : XState} {c : Char} (h : xmlChar c = true) : st.step pieces c = st.char pieces c := by
  simp [XState.step, h]

/-! ## Character classes -/

theorem ws_xmlChar {c : Char} (h : xmlWs c = true) : xmlChar c = true := by
  simp only [xmlWs, Bool.or_eq_true, beq_iff_eq] at h
  rcases h with ((rfl | rfl) | rfl) | rfl <;> decide

theorem ws_not_name {c : Char} (h : xmlWs c = true) : nameChar c = false := by
  simp only [xmlWs, Bool.or_eq_true, beq_iff_eq] at h
  rcases h with ((rfl | rfl) | rfl) | rfl <;> decide

theorem ws_ne {c : Char} (h : xmlWs c = true) (d : Char) (hd : xmlWs d = false) : c ≠ d := by
  rintro rfl; rw [h] at hd; cases hd

theorem name_ne {c : Char} (h : nameChar c = true) (d : Char) (hd : nameChar d = false) : c ≠ d := by
  rintro rfl; rw [h] at hd; cases hd

theorem name_not_ws {c : Char} (h : nameChar c = true) : xmlWs c = false := by
  cases hw : xmlWs c
  · rfl
  · rw [ws_not_name hw] at h; cases h

theorem nameStart_name {c : Char} (h : nameStart c = true) : nameChar c = true := by simp [nameChar, h]

theorem XmlName.ne_nil {n : Str} (h : XmlName n) : n ≠ [] := by
  obtain ⟨c, t, rfl, _⟩ := h.start; simp

theorem XmlName.tail {n : Str} (h : XmlName n) : ∃ c t, n = c :: t ∧ nameStart c = true ∧ xmlChar c = true ∧
    ∀ x ∈ t, nameChar x = true ∧ xmlChar x = true := by
  obtain ⟨c, t, rfl, hs⟩ := h.start
  exact ⟨c, t, rfl, hs, (h.rest c (by simp)).2, fun x hx => h.rest x (by simp [hx])⟩

/-! ## Names and white space -/

theorem run_openName (s : Str) : ∀ (st : XState) (n : Str), st.mode = .openName n →
    (∀ x ∈ s, nameChar x = true ∧ xmlChar x = true) → st.run pieces s = { st with mode := .openName (n ++ s) } := by
  induction s with
  | nil => intro st n hm _; rw [xmlRun_nil, List.append_nil, ← hm]
  | cons c s ih =>
    intro st n hm h
    obtain ⟨h1, h2⟩ := h c (by simp)
    rw [xmlRun_cons, step_ok h2]
    simp only [XState.char, hm, h1, if_true]
    rw [ih _ (n ++ [c]) rfl (fun x hx => h x (by simp [hx]))]
    simp

theorem run_attName (s : Str) : ∀ (st : XState) (n : Str) (as : List (Str × Str)) (a : Str), st.mode = .attName n as a →
    (∀ x ∈ s, nameChar x = true ∧ xmlChar x = true) → st.run pieces s = { st with mode := .attName n as (a ++ s) } := by
  induction s with
  | nil => intro st n as a hm _; rw [xmlRun_nil, List.append_nil, ← hm]
  | cons c s ih =>
    intro st n as a hm h
    obtain ⟨h1, h2⟩ := h c (by simp)
    rw [xmlRun_cons, step_ok h2]
    simp only [XState.char, hm, h1, if_true]
    rw [ih _ n as (a ++ [c]) rfl (fun x hx => h x (by simp [hx]))]
    simp

theorem run_closeName (s : Str) : ∀ (st : XState) (n : Str), st.mode = .closeName n →
    (∀ x ∈ s, nameChar x = true ∧ xmlChar x = true) → st.run pieces s = { st with mode := .closeName (n ++ s) } := by
  induction s with
  | nil => intro st n hm _; rw [xmlRun_nil, List.append_nil, ← hm]
  | cons c s ih =>
    intro st n hm h
    obtain ⟨h1, h2⟩ := h c (by simp)
    rw [xmlRun_cons, step_ok h2]
    simp only [XState.char, hm, h1, if_true]
    rw [ih _ (n ++ [c]) rfl (fun x hx => h x (by simp [hx]))]
    simp

theorem run_piName (s : Str) : ∀ (st : XState) (n : Str), st.mode = .piName n → n ≠ [] →
    (∀ x ∈ s, nameChar x = true ∧ xmlChar x = true) → st.run pieces s = { st with mode := .piName (n ++ s) } := by
  induction s with
  | nil => intro st n hm _ _; rw [xmlRun_nil, List.append_nil, ← hm]
  | cons c s ih =>
    intro st n hm hn h
    obtain ⟨h1, h2⟩ := h c (by simp)
    rw [xmlRun_cons, step_ok h2]
    simp only [XState.char, hm, h1, hn, if_true, if_false]
    rw [ih _ (n ++ [c]) rfl (by simp) (fun x hx => h x (by simp [hx]))]
    simp

/-- White space inside a tag. -/
theorem run_inTag_ws (s : Str) : ∀ (st : XState) (n : Str) (as : List (Str × Str)) (w : Bool), st.mode = .inTag n as w →
    Spaces s → st.run pieces s = { st with mode := .inTag n as (w || !s.isEmpty) } := by
  induction s with
  | nil => intro st n as w hm _; simp [xmlRun_nil, ← hm]
  | cons c s ih =>
    intro st n as w hm h
    have h1 := h c (by simp)
    rw [xmlRun_cons, step_ok (ws_xmlChar h1)]
    simp only [XState.char, hm, h1, if_true]
    rw [ih _ n as true rfl (fun x hx => h x (by simp [hx]))]
    simp

theorem run_attEq_ws (s : Str) : ∀ (st : XState) (n : Str) (as : List (Str × Str)) (a : Str), st.mode = .attEq n as a →
    Spaces s → st.run pieces s = st := by
  induction s with
  | nil => intro st n as a hm _; rfl
  | cons c s ih =>
    intro st n as a hm h
    have h1 := h c (by simp)
    rw [xmlRun_cons, step_ok (ws_xmlChar h1)]
    simp only [XState.char, hm, h1, if_true]
    exact ih _ n as a hm (fun x hx => h x (by simp [hx]))

theorem run_attQuote_ws (s : Str) : ∀ (st : XState) (n : Str) (as : List (Str × Str)) (a : Str),
    st.mode = .attQuote n as a → Spaces s → st.run pieces s = st := by
  induction s with
  | nil => intro st n as a hm _; rfl
  | cons c s ih =>
    intro st n as a hm h
    have h1 := h c (by simp)
    rw [xmlRun_cons, step_ok (ws_xmlChar h1)]
    simp only [XState.char, hm, h1, if_true]
    exact ih _ n as a hm (fun x hx => h x (by simp [hx]))

theorem run_closeWs_ws (s : Str) : ∀ (st : XState) (n : Str), st.mode = .closeWs n → Spaces s →
    st.run pieces s = st := by
  induction s with
  | nil => intro st n hm _; rfl
  | cons c s ih =>
    intro st n hm h
    have h1 := h c (by simp)
    rw [xmlRun_cons, step_ok (ws_xmlChar h1)]
    simp only [XState.char, hm, h1, if_true]
    exact ih _ n hm (fun x hx => h x (by simp [hx]))

/-- White space outside the root element. -/
theorem run_outside_ws (s : Str) : ∀ (st : XState) (k : Nat), st.mode = .content k → st.stack = [] → Spaces s →
    st.run pieces s = st := by
  induction s with
  | nil => intro st k hm _ _; rfl
  | cons c s ih =>
    intro st k hm hs h
    have h1 := h c (by simp)
    rw [xmlRun_cons, step_ok (ws_xmlChar h1)]
    simp only [XState.char, hm, h1, hs, ws_ne h1 '<' (by decide), if_true, if_false]
    exact ih _ k hm hs (fun x hx => h x (by simp [hx]))

/-! ## References -/

theorem digit_dec : ∀ d < 10, digitVal 10 (Nat.digitChar d) = some d ∧ xmlChar (Nat.digitChar d) = true ∧
    Nat.digitChar d ≠ ';' ∧ Nat.digitChar d ≠ 'x' := by decide

theorem digit_hex : ∀ u : Bool, ∀ d < 16, digitVal 16 (hexChar u d) = some d ∧ xmlChar (hexChar u d) = true ∧
    hexChar u d ≠ ';' := by decide

theorem numVal_digits (base : Nat) (f : Nat → Char) : ∀ (ds : List Nat) (acc : Nat),
    (∀ d ∈ ds, digitVal base (f d) = some d) →
    numVal base acc (ds.map f) = some (ds.foldl (fun a d => a * base + d) acc)
  | [], acc, _ => rfl
  | d :: ds, acc, h => by
    simp only [List.map_cons, numVal, h d (by simp), List.foldl_cons]
    exact numVal_digits base f ds _ fun x hx => h x (by simp [hx])

theorem numVal_hex : ∀ (ds : List (Bool × Nat)) (acc : Nat), (∀ d ∈ ds, d.2 < 16) →
    numVal 16 acc (ds.map fun d => hexChar d.1 d.2) = some ((ds.map (·.2)).foldl (fun a d => a * 16 + d) acc)
  | [], acc, _ => rfl
  | d :: ds, acc, h => by
    simp only [List.map_cons, numVal, (digit_hex d.1 d.2 (h d (by simp))).1, List.foldl_cons]
    exact numVal_hex ds _ fun x hx => h x (by simp [hx])

/-- The text between `&` and `;`, its characters, and its meaning. -/
theorem ref_body (f : CForm) (stop : List Char) (h : f.Ok stop) (hr : ∀ c, f ≠ .raw c) :
    ∃ b, f.text = '&' :: (b ++ [';']) ∧ entity b = some f.char ∧ ∀ x ∈ b, xmlChar x = true ∧ x ≠ ';' := by
  cases f with
  | raw c => exact absurd rfl (hr c)
  | named c =>
    refine ⟨entityName c, rfl, ?_⟩
    simp only [CForm.Ok, List.mem_cons, List.not_mem_nil, or_false] at h
    rcases h with rfl | rfl | rfl | rfl | rfl <;> decide
  | dec ds =>
    obtain ⟨h1, h2, h3⟩ := h
    refine ⟨'#' :: ds.map Nat.digitChar, rfl, ?_, ?_⟩
    · cases ds with
      | nil => exact absurd rfl h1
      | cons d ds =>
        have hx := (digit_dec d (h2 d (by simp))).2.2.2
        have hn := numVal_digits 10 Nat.digitChar (d :: ds) 0 fun x hx => (digit_dec x (h2 x hx)).1
        rw [List.map_cons] at hn ⊢
        have e : entity ('#' :: Nat.digitChar d :: ds.map Nat.digitChar) =
            (numVal 10 0 (Nat.digitChar d :: ds.map Nat.digitChar)).bind charRef := by
          unfold entity
          simp only [List.cons.injEq, show ('#' : Char) ≠ 'l' by decide, show ('#' : Char) ≠ 'g' by decide,
            show ('#' : Char) ≠ 'a' by decide, show ('#' : Char) ≠ 'q' by decide, false_and, if_false]
          split
          · rename_i heq
            simp only [List.cons.injEq, true_and] at heq
            exact absurd heq.1 hx
          · rename_i heq
            simp only [List.cons.injEq, true_and] at heq
            rw [heq.1, heq.2]
          · rename_i h4 h5
            exact absurd rfl (h5 _ _)
        rw [e, hn]
        simp only [Option.bind_some, charRef, CForm.char, digitsNum] at h3 ⊢
        exact if_pos h3
    · intro x hx
      rcases List.mem_cons.mp hx with rfl | hx
      · decide
      · obtain ⟨d, hd, rfl⟩ := List.mem_map.mp hx
        have := digit_dec d (h2 d hd)
        exact ⟨this.2.1, this.2.2.1⟩
  | hex ds =>
    obtain ⟨h1, h2, h3⟩ := h
    refine ⟨'#' :: 'x' :: ds.map (fun d => hexChar d.1 d.2), rfl, ?_, ?_⟩
    · cases ds with
      | nil => exact absurd rfl h1
      | cons d ds =>
        have hn := numVal_hex (d :: ds) 0 h2
        rw [List.map_cons] at hn ⊢
        have e : entity ('#' :: 'x' :: hexChar d.1 d.2 :: ds.map (fun d => hexChar d.1 d.2)) =
            (numVal 16 0 (hexChar d.1 d.2 :: ds.map (fun d => hexChar d.1 d.2))).bind charRef := by
          unfold entity
          simp only [List.cons.injEq, show ('#' : Char) ≠ 'l' by decide, show ('#' : Char) ≠ 'g' by decide,
            show ('#' : Char) ≠ 'a' by decide, show ('#' : Char) ≠ 'q' by decide, false_and, if_false]
        rw [e, hn]
        simp only [Option.bind_some, charRef, CForm.char, digitsNum] at h3 ⊢
        exact if_pos h3
    · intro x hx
      rcases List.mem_cons.mp hx with rfl | hx
      · decide
      rcases List.mem_cons.mp hx with rfl | hx
      · decide
      · obtain ⟨d, hd, rfl⟩ := List.mem_map.mp hx
        have := digit_hex d.1 d.2 (h2 d hd)
        exact ⟨this.2.1, this.2.2⟩

theorem run_ref (b : Str) : ∀ (st : XState) (r : Str), st.mode = .ref r → (∀ x ∈ b, xmlChar x = true ∧ x ≠ ';') →
    st.run pieces b = { st with mode := .ref (r ++ b) } := by
  induction b with
  | nil => intro st r hm _; rw [xmlRun_nil, List.append_nil, ← hm]
  | cons c s ih =>
    intro st r hm h
    obtain ⟨h1, h2⟩ := h c (by simp)
    rw [xmlRun_cons, step_ok h1]
    simp only [XState.char, hm, h2, if_false]
    rw [ih _ (r ++ [c]) rfl (fun x hx => h x (by simp [hx]))]
    simp

theorem run_attRef (b : Str) : ∀ (st : XState) (n : Str) (as : List (Str × Str)) (a : Str) (q : Char) (v r : Str),
    st.mode = .attRef n as a q v r → (∀ x ∈ b, xmlChar x = true ∧ x ≠ ';') →
    st.run pieces b = { st with mode := .attRef n as a q v (r ++ b) } := by
  induction b with
  | nil => intro st n as a q v r hm _; rw [xmlRun_nil, List.append_nil, ← hm]
  | cons c s ih =>
    intro st n as a q v r hm h
    obtain ⟨h1, h2⟩ := h c (by simp)
    rw [xmlRun_cons, step_ok h1]
    simp only [XState.char, hm, h2, if_false]
    rw [ih _ n as a q v (r ++ [c]) rfl (fun x hx => h x (by simp [hx]))]
    simp

/-- The number of brackets before the next character. -/
def afterChar (k : Nat) : CForm → Nat
  | .raw c => if c = ']' then min (k + 1) 2 else 0
  | _ => 0

/-- No text goes on with `>` after two brackets, when there were `k` brackets before. -/
def NoEnd : Nat → List Piece → Prop
  | _, [] => True
  | k, .char f :: ps => ¬ (k = 2 ∧ f = .raw '>') ∧ NoEnd (afterChar k f) ps
  | _, _ :: ps => NoEnd 0 ps

/-- The same about the list of pieces. -/
theorem noEnd_iff : ∀ (ps : List Piece) (k : Nat), k ≤ 2 →
    (NoEnd k ps ↔ ¬ [.char (.raw ']'), .char (.raw ']'), .char (.raw '>')] <:+: List.replicate k (.char (.raw ']')) ++ ps) := by
  intro ps
  induction ps with
  | nil =>
    intro k hk
    refine ⟨fun _ => ?_, fun _ => trivial⟩
    intro h
    have := h.length_le
    simp at this
    omega
  | cons p ps ih =>
    intro k hk
    have other : (∀ f, p ≠ .char f) → (NoEnd 0 ps ↔
        ¬ [.char (.raw ']'), .char (.raw ']'), .char (.raw '>')] <:+: List.replicate k (.char (.raw ']')) ++ p :: ps) := by
      intro hp
      rw [ih 0 (by omega), List.replicate_zero, List.nil_append]
      have h1 := hp (.raw ']')
      have h2 := hp (.raw '>')
      have : k = 0 ∨ k = 1 ∨ k = 2 := by omega
      rcases this with rfl | rfl | rfl <;>
        simp [List.replicate_succ, List.infix_cons_iff, List.prefix_cons_iff, Ne.symm h1, Ne.symm h2]
    cases p with
    | char f =>
      show (¬ (k = 2 ∧ f = .raw '>') ∧ NoEnd (afterChar k f) ps) ↔ _
      by_cases h1 : f = .raw ']'
      · subst h1
        rw [show afterChar k (.raw ']') = min (k + 1) 2 from rfl, ih _ (by omega)]
        have : k = 0 ∨ k = 1 ∨ k = 2 := by omega
        rcases this with rfl | rfl | rfl <;>
          simp [List.replicate_succ, List.infix_cons_iff, List.prefix_cons_iff]
      · have : afterChar k f = 0 := by
          cases f with
          | raw c =>
            simp only [afterChar]
            rw [if_neg]
            rintro rfl
            exact h1 rfl
          | _ => rfl
        rw [this, ih 0 (by omega)]
        have h3 : (CForm.raw '>' = f) = (f = .raw '>') := propext eq_comm
        have : k = 0 ∨ k = 1 ∨ k = 2 := by omega
        rcases this with rfl | rfl | rfl <;>
          simp [List.replicate_succ, List.infix_cons_iff, List.prefix_cons_iff, Ne.symm h1, h3]
    | start t as ws => exact other (by simp)
    | empty t as ws => exact other (by simp)
    | close t ws => exact other (by simp)
    | cdata s => exact other (by simp)
    | aside a => exact other (by simp)

/-- A character in character data. -/
theorem run_char (f : CForm) (h : f.Ok []) (st : XState) (k : Nat) (hm : st.mode = .content k)
    (hs : st.stack ≠ []) (hk : ¬ (k = 2 ∧ f = .raw '>')) :
    st.run pieces f.text = { st with mode := .content (afterChar k f), text := st.text ++ [f.char] } := by
  by_cases hr : ∃ c, f = .raw c
  · obtain ⟨c, rfl⟩ := hr
    obtain ⟨h1, h2, h3, h4⟩ := h
    have h4 : ¬ (c = '>' ∧ k = 2) := fun e => hk ⟨e.2, by rw [e.1]⟩
    simp only [CForm.text, CForm.char]
    rw [xmlRun_cons, step_ok h1, xmlRun_nil]
    simp only [XState.char, hm, h2, h3, h4, hs, if_false, afterChar]
  · obtain ⟨b, e, he, hb⟩ := ref_body f _ h fun c hc => hr ⟨c, hc⟩
    have ha : afterChar k f = 0 := by
      cases f with
      | raw c => exact absurd ⟨c, rfl⟩ hr
      | _ => rfl
    rw [ha, e, xmlRun_cons, step_ok (by decide), xmlRun_append]
    simp only [XState.char, hm, hs, show ('&' : Char) ≠ '<' by decide, if_false, if_true]
    rw [run_ref b _ [] rfl hb, xmlRun_cons, step_ok (by decide), xmlRun_nil]
    simp only [XState.char, List.nil_append, if_true, he]

/-- A character in an attribute value. -/
theorem run_attChar (f : CForm) (q : Char) (hq : q = '"' ∨ q = '\'') (h : f.Ok [q]) (st : XState) (n : Str)
    (as : List (Str × Str)) (a v : Str) (hm : st.mode = .attVal n as a q v) :
    st.run pieces f.text = { st with mode := .attVal n as a q (v ++ [f.attChar]) } := by
  have hq' : ('&' : Char) ≠ q := by rcases hq with rfl | rfl <;> decide
  by_cases hr : ∃ c, f = .raw c
  · obtain ⟨c, rfl⟩ := hr
    obtain ⟨h1, h2, h3, h4⟩ := h
    have h4 : c ≠ q := by simpa using h4
    simp only [CForm.text, CForm.attChar]
    rw [xmlRun_cons, step_ok h1, xmlRun_nil]
    simp only [XState.char, hm, h2, h3, h4, if_false]
  · obtain ⟨b, e, he, hb⟩ := ref_body f _ h fun c hc => hr ⟨c, hc⟩
    have ha : f.attChar = f.char := by
      cases f with
      | raw c => exact absurd ⟨c, rfl⟩ hr
      | _ => rfl
    rw [e, xmlRun_cons, step_ok (by decide), xmlRun_append]
    simp only [XState.char, hm, hq', show ('&' : Char) ≠ '<' by decide, if_false, if_true]
    rw [run_attRef b _ n as a q v [] rfl hb, xmlRun_cons, step_ok (by decide), xmlRun_nil]
    simp only [XState.char, List.nil_append, if_true, he, ha]

theorem run_attChars (q : Char) (hq : q = '"' ∨ q = '\'') : ∀ (fs : List CForm), (∀ f ∈ fs, f.Ok [q]) → ∀ (st : XState)
    (n : Str) (as : List (Str × Str)) (a v : Str), st.mode = .attVal n as a q v →
    st.run pieces (fs.flatMap CForm.text) = { st with mode := .attVal n as a q (v ++ fs.map CForm.attChar) }
  | [], _, st, n, as, a, v, hm => by simp [xmlRun_nil, ← hm]
  | f :: fs, h, st, n, as, a, v, hm => by
    rw [List.flatMap_cons, xmlRun_append, run_attChar f q hq (h f (by simp)) st n as a v hm,
      run_attChars q hq fs (fun x hx => h x (by simp [hx])) _ n as a (v ++ [f.attChar]) rfl]
    simp

/-! ## Tags -/

/-- One attribute. -/
theorem run_att (x : AttForm) (h : x.Ok) (st : XState) (n : Str) (as : List (Str × Str)) (w : Bool)
    (hm : st.mode = .inTag n as w) (hn : x.name ∉ as.map (·.1)) :
    st.run pieces x.text = { st with mode := .inTag n (as ++ [x.pair]) false } := by
  obtain ⟨⟨hw, hw0⟩, hname, ⟨hw1, hw2⟩, hval⟩ := h
  obtain ⟨c, t, hct, hc1, hc2, ht⟩ := hname.tail
  have hq : x.quote = '"' ∨ x.quote = '\'' := by unfold AttForm.quote; split <;> simp
  have hqx : xmlChar x.quote = true := by rcases hq with h | h <;> rw [h] <;> decide
  have hqw : xmlWs x.quote = false := by rcases hq with h | h <;> rw [h] <;> decide
  unfold AttForm.text
  rw [xmlRun_append, run_inTag_ws x.ws st n as w hm hw, xmlRun_append]
  have hne : (w || !x.ws.isEmpty) = true := by
    cases hx : x.ws with
    | nil => exact absurd hx hw0
    | cons a b => simp
  rw [hne]
  nth_rw 1 [hct]
  rw [xmlRun_cons, step_ok hc2]
  simp only [XState.char, name_not_ws (nameStart_name hc1), name_ne (nameStart_name hc1) '/' (by decide),
    name_ne (nameStart_name hc1) '>' (by decide), hc1, if_false, and_self, if_true, Bool.false_eq_true]
  rw [run_attName t _ n as [c] rfl ht]
  simp only [List.singleton_append]
  rw [← hct]
  -- to the quotation mark
  have key : ∀ st' : XState, st'.mode = .attName n as x.name →
      st'.run pieces (x.ws1 ++ '=' :: (x.ws2 ++ x.quote :: (x.value.flatMap CForm.text ++ [x.quote]))) =
        { st' with mode := .inTag n (as ++ [x.pair]) false } := by
    intro st' hm'
    rw [xmlRun_append]
    have hstep : (st'.run pieces x.ws1).step pieces '=' = { st' with mode := .attQuote n as x.name } := by
      cases hx : x.ws1 with
      | nil =>
        rw [xmlRun_nil, step_ok (by decide)]
        simp [XState.char, hm', show nameChar '=' = false by decide, show xmlWs '=' = false by decide]
      | cons d ds =>
        rw [hx] at hw1
        have hd := hw1 d (by simp)
        rw [xmlRun_cons, step_ok (ws_xmlChar hd)]
        simp only [XState.char, hm', ws_not_name hd, hd, if_true, Bool.false_eq_true, if_false]
        rw [run_attEq_ws ds _ n as x.name rfl (fun y hy => hw1 y (by simp [hy])), step_ok (by decide)]
        simp [XState.char, show xmlWs '=' = false by decide]
    rw [xmlRun_cons, hstep, xmlRun_append, run_attQuote_ws x.ws2 _ n as x.name rfl hw2, xmlRun_cons, step_ok hqx]
    simp only [XState.char, hqw, hq, if_true, Bool.false_eq_true, if_false]
    rw [xmlRun_append, run_attChars x.quote hq x.value hval _ n as x.name [] rfl, xmlRun_cons, step_ok hqx, xmlRun_nil]
    have : (as.map (·.1)).contains x.name = false := by simpa using hn
    simp only [XState.char, if_true, this, Bool.false_eq_true, if_false, List.nil_append, AttForm.pair]
  rw [key _ rfl]

theorem run_atts : ∀ (xs : List AttForm), (∀ x ∈ xs, x.Ok) → ∀ (st : XState) (n : Str) (as : List (Str × Str)) (w : Bool),
    st.mode = .inTag n as w → (as.map (·.1) ++ xs.map AttForm.name).Nodup →
    ∃ w', st.run pieces (xs.flatMap AttForm.text) = { st with mode := .inTag n (as ++ xs.map AttForm.pair) w' }
  | [], _, st, n, as, w, hm, _ => ⟨w, by simp [xmlRun_nil, ← hm]⟩
  | x :: xs, h, st, n, as, w, hm, hn => by
    have hx : x.name ∉ as.map (·.1) := by
      intro hin
      have := (List.nodup_append.mp hn).2.2 x.name hin x.name (by simp)
      exact this rfl
    rw [List.flatMap_cons, xmlRun_append, run_att x (h x (by simp)) st n as w hm hx]
    obtain ⟨w', e⟩ := run_atts xs (fun y hy => h y (by simp [hy])) { st with mode := .inTag n (as ++ [x.pair]) false } n
      (as ++ [x.pair]) false rfl (by
        have e : (as ++ [x.pair]).map (·.1) ++ xs.map AttForm.name = as.map (·.1) ++ (x :: xs).map AttForm.name := by
          simp [AttForm.pair]
        rw [e]; exact hn)
    refine ⟨w', ?_⟩
    rw [e]
    simp

/-- A tag up to its end: name, attributes, white space. -/
theorem run_tag (t : Str) (ht : XmlName t) (xs : List AttForm) (hx : AttrsOk xs) (ws : Str) (hw : Spaces ws)
    (st : XState) (k : Nat) (hm : st.mode = .content k) (hr : st.stack = [] → st.done = false) :
    ∃ m, st.run pieces ('<' :: (t ++ (xs.flatMap AttForm.text ++ ws))) = { st with mode := m } ∧
      ((m = .openName t ∧ xs = []) ∨ ∃ w, m = .inTag t (xs.map AttForm.pair) w) := by
  obtain ⟨c, r, hct, hc1, hc2, hr'⟩ := ht.tail
  have hlt : st.step pieces '<' = { st with mode := .lt } := by
    rw [step_ok (by decide)]
    simp [XState.char, hm]
  have hopen : ({ st with mode := .lt } : XState).run pieces t = { st with mode := .openName t } := by
    rw [hct, xmlRun_cons, step_ok hc2]
    have hn := nameStart_name hc1
    have hno : ¬ (st.stack = [] ∧ st.done = true) := fun h => by rw [hr h.1] at h; cases h.2
    simp only [XState.char, name_ne hn '/' (by decide), name_ne hn '!' (by decide), name_ne hn '?' (by decide), hc1, hno,
      if_true, if_false]
    rw [run_openName r _ [c] rfl hr']
    rfl
  rw [xmlRun_cons, hlt, xmlRun_append, hopen, xmlRun_append]
  -- the first white space after the name
  have first : ∀ (d : Char) (ds : Str), xmlWs d = true → ∀ st' : XState, st'.mode = .openName t →
      st'.run pieces (d :: ds) = ({ st' with mode := .inTag t [] false } : XState).run pieces (d :: ds) := by
    intro d ds hd st' hm'
    rw [xmlRun_cons, xmlRun_cons, step_ok (ws_xmlChar hd), step_ok (ws_xmlChar hd)]
    simp only [XState.char, hm', ws_not_name hd, hd, if_true, Bool.false_eq_true, if_false]
  cases xs with
  | nil =>
    rw [List.flatMap_nil, xmlRun_nil]
    cases ws with
    | nil => exact ⟨.openName t, by rw [xmlRun_nil], .inl ⟨rfl, rfl⟩⟩
    | cons d ds =>
      rw [first d ds (hw d (by simp)) _ rfl, run_inTag_ws (d :: ds) _ t [] false rfl hw]
      exact ⟨_, rfl, .inr ⟨_, rfl⟩⟩
  | cons x xs =>
    have hx0 := hx.1 x (by simp)
    obtain ⟨d, ds, hd⟩ : ∃ d ds, x.ws = d :: ds := by
      cases e : x.ws with
      | nil => exact absurd e hx0.ws.2
      | cons d ds => exact ⟨d, ds, rfl⟩
    have hd1 : xmlWs d = true := hx0.ws.1 d (by rw [hd]; simp)
    have e : (x :: xs).flatMap AttForm.text = d :: (ds ++ (x.name ++ (x.ws1 ++ '=' :: (x.ws2 ++ x.quote ::
        (x.value.flatMap CForm.text ++ [x.quote])))) ++ xs.flatMap AttForm.text) := by
      rw [List.flatMap_cons, AttForm.text, hd]; simp
    have e2 : ({ st with mode := .openName t } : XState).run pieces ((x :: xs).flatMap AttForm.text) =
        ({ st with mode := .inTag t [] false } : XState).run pieces ((x :: xs).flatMap AttForm.text) := by
      rw [e]; exact first d _ hd1 _ rfl
    rw [e2]
    obtain ⟨w, e3⟩ := run_atts (pieces := pieces) (x :: xs) hx.1 { st with mode := .inTag t [] false } t [] false rfl
      (by simpa using hx.2)
    rw [e3, run_inTag_ws ws _ t _ w rfl hw]
    exact ⟨_, rfl, .inr ⟨_, rfl⟩⟩

theorem run_start (t : Str) (ht : XmlName t) (xs : List AttForm) (hx : AttrsOk xs) (ws : Str) (hw : Spaces ws)
    (st : XState) (k : Nat) (hm : st.mode = .content k) (hr : st.stack = [] → st.done = false) :
    st.run pieces (Piece.start t xs ws).text = st.start pieces t (xs.map AttForm.pair) := by
  obtain ⟨m, e, h⟩ := run_tag (pieces := pieces) t ht xs hx ws hw st k hm hr
  have ee : (Piece.start t xs ws).text = ('<' :: (t ++ (xs.flatMap AttForm.text ++ ws))) ++ ['>'] := by
    simp [Piece.text]
  rw [ee, xmlRun_append, e, xmlRun_cons, step_ok (by decide), xmlRun_nil]
  rcases h with ⟨rfl, rfl⟩ | ⟨w, rfl⟩
  · simp [XState.char, XState.start, show nameChar '>' = false by decide, show xmlWs '>' = false by decide]
  · simp [XState.char, XState.start, show xmlWs '>' = false by decide]

theorem run_empty (t : Str) (ht : XmlName t) (xs : List AttForm) (hx : AttrsOk xs) (ws : Str) (hw : Spaces ws)
    (st : XState) (k : Nat) (hm : st.mode = .content k) (hr : st.stack = [] → st.done = false) :
    st.run pieces (Piece.empty t xs ws).text = st.empty pieces t (xs.map AttForm.pair) := by
  obtain ⟨m, e, h⟩ := run_tag (pieces := pieces) t ht xs hx ws hw st k hm hr
  have ee : (Piece.empty t xs ws).text = ('<' :: (t ++ (xs.flatMap AttForm.text ++ ws))) ++ ['/', '>'] := by
    simp [Piece.text]
  rw [ee, xmlRun_append, e, xmlRun_cons, step_ok (by decide), xmlRun_cons, step_ok (by decide), xmlRun_nil]
  rcases h with ⟨rfl, rfl⟩ | ⟨w, rfl⟩
  · simp [XState.char, XState.empty, XState.start, show nameChar '/' = false by decide, show xmlWs '/' = false by decide]
  · simp [XState.char, XState.empty, XState.start, show xmlWs '/' = false by decide]

theorem run_close (t : Str) (ht : XmlName t) (ws : Str) (hw : Spaces ws) (st : XState) (k : Nat)
    (hm : st.mode = .content k) : st.run pieces (Piece.close t ws).text = st.close pieces t := by
  have ee : (Piece.close t ws).text = '<' :: '/' :: (t ++ (ws ++ ['>'])) := rfl
  rw [ee, xmlRun_cons, step_ok (by decide), xmlRun_cons, step_ok (by decide)]
  simp only [XState.char, hm, if_true]
  rw [xmlRun_append, run_closeName t _ [] rfl ht.rest, xmlRun_append, List.nil_append]
  have hws : (({ st with mode := .closeName t } : XState).run pieces ws) = { st with mode := .closeName t } ∨
      (({ st with mode := .closeName t } : XState).run pieces ws) = { st with mode := .closeWs t } := by
    cases ws with
    | nil => left; rfl
    | cons d ds =>
      right
      have hd := hw d (by simp)
      rw [xmlRun_cons, step_ok (ws_xmlChar hd)]
      simp only [XState.char, ws_not_name hd, hd, if_true, Bool.false_eq_true, if_false]
      exact run_closeWs_ws ds _ t rfl (fun x hx => hw x (by simp [hx]))
  rcases hws with e | e <;> rw [e, xmlRun_cons, step_ok (by decide), xmlRun_nil]
  · simp only [XState.char, show nameChar '>' = false by decide, show xmlWs '>' = false by decide, Bool.false_eq_true,
      if_false, if_true]
    unfold XState.close
    cases st.stack with
    | nil => rfl
    | cons a b => simp only
  · simp only [XState.char, show xmlWs '>' = false by decide, Bool.false_eq_true, if_false, if_true]
    unfold XState.close
    cases st.stack with
    | nil => rfl
    | cons a b => simp only

/-! ## Comments, processing instructions, CDATA sections -/

theorem run_comment : ∀ (s : Str) (st : XState) (d : Nat), d ≤ 1 → st.mode = .comment d → Chars s →
    (¬ ['-', '-'] <:+: List.replicate d '-' ++ (s ++ ['-'])) → st.run pieces s = { st with mode := .comment 0 }
  | [], st, d, hd, hm, _, hi => by
    have : d = 0 := by
      rcases Nat.le_one_iff_eq_zero_or_eq_one.mp hd with h | rfl
      · exact h
      · exact absurd ⟨[], [], rfl⟩ hi
    rw [xmlRun_nil, ← this, ← hm]
  | c :: s, st, d, hd, hm, hc, hi => by
    rw [xmlRun_cons, step_ok (hc c (by simp))]
    have hc' : Chars s := fun x hx => hc x (by simp [hx])
    by_cases h : c = '-'
    · subst h
      have : d = 0 := by
        rcases Nat.le_one_iff_eq_zero_or_eq_one.mp hd with h | rfl
        · exact h
        · exact absurd ⟨[], s ++ ['-'], rfl⟩ hi
      subst this
      simp only [XState.char, hm, if_true, show ¬ (0 : Nat) = 2 by decide, if_false]
      rw [run_comment s _ 1 (le_refl 1) rfl hc' (by simpa using hi)]
    · have h2 : ¬ d = 2 := by omega
      simp only [XState.char, hm, h, h2, if_false]
      rw [run_comment s _ 0 (by omega) rfl hc' (fun hh => hi (hh.trans ⟨List.replicate d '-' ++ [c], [], by simp⟩))]

theorem run_piData : ∀ (s : Str) (st : XState) (q : Bool), st.mode = .piData q → Chars s →
    (¬ ['?', '>'] <:+: (if q then ['?'] else []) ++ s) → ∃ q', st.run pieces s = { st with mode := .piData q' }
  | [], st, q, hm, _, _ => ⟨q, by rw [xmlRun_nil, ← hm]⟩
  | c :: s, st, q, hm, hc, hi => by
    rw [xmlRun_cons, step_ok (hc c (by simp))]
    have hc' : Chars s := fun x hx => hc x (by simp [hx])
    have hq : ¬ (q = true ∧ c = '>') := by
      rintro ⟨rfl, rfl⟩
      exact hi ⟨[], s, rfl⟩
    simp only [XState.char, hm, hq, if_false]
    obtain ⟨q', e⟩ := run_piData s { st with mode := .piData (c == '?') } (c == '?') rfl hc' (by
      intro hh
      apply hi
      refine hh.trans ?_
      by_cases h : c = '?'
      · subst h
        exact ⟨if q then ['?'] else [], [], by simp⟩
      · exact ⟨(if q then ['?'] else []) ++ [c], [], by simp [h]⟩)
    exact ⟨q', e⟩

theorem run_cdata : ∀ (s : Str) (st : XState) (rev : Str), st.mode = .cdata rev → Chars s →
    (¬ [']', ']', '>'] <:+: rev.reverse ++ s) → st.run pieces s = { st with mode := .cdata (s.reverse ++ rev) }
  | [], st, rev, hm, _, _ => by rw [xmlRun_nil, List.reverse_nil, List.nil_append, ← hm]
  | c :: s, st, rev, hm, hc, hi => by
    rw [xmlRun_cons, step_ok (hc c (by simp))]
    have e : st.char pieces c = { st with mode := .cdata (c :: rev) } := by
      simp only [XState.char, hm]
      split
      · exact absurd ⟨_, s, by simp; rfl⟩ hi
      · rfl
    rw [e, run_cdata s _ (c :: rev) rfl (fun x hx => hc x (by simp [hx])) (by simpa using hi)]
    simp

theorem run_aside (a : Aside) (h : a.Ok) (st : XState) (k : Nat) (hm : st.mode = .content k) :
    st.run pieces a.text = { st with mode := .content 0 } := by
  have hlt : st.step pieces '<' = { st with mode := .lt } := by
    rw [step_ok (by decide)]
    simp [XState.char, hm]
  cases a with
  | comment s =>
    obtain ⟨h1, h2⟩ := h
    have e : (['<', '!', '-', '-'] : Str).foldl (XState.step pieces) st = { st with mode := .comment 0 } := by
      rw [List.foldl_cons, hlt]
      rfl
    show st.run pieces (['<', '!', '-', '-'] ++ (s ++ ['-', '-', '>'])) = _
    rw [xmlRun_append, show st.run pieces ['<', '!', '-', '-'] = _ from e, xmlRun_append,
      run_comment s _ 0 (by decide) rfl h1 h2]
    rfl
  | pi t s =>
    obtain ⟨h1, h2, h3, h4, h5⟩ := h
    obtain ⟨c, r, hct, hc1, hc2, hr⟩ := h1.tail
    have e : (['<', '?'] : Str).foldl (XState.step pieces) st = { st with mode := .piName [] } := by
      rw [List.foldl_cons, hlt]
      rfl
    show st.run pieces (['<', '?'] ++ (t ++ (s ++ ['?', '>']))) = _
    rw [xmlRun_append, show st.run pieces ['<', '?'] = _ from e, xmlRun_append]
    have e2 : ({ st with mode := .piName [] } : XState).run pieces t = { st with mode := .piName t } := by
      rw [hct, xmlRun_cons, step_ok hc2]
      simp only [XState.char, hc1, if_true]
      rw [run_piName r _ [c] rfl (by simp) hr]
      rfl
    have hx : isXmlTarget t = false := by simpa [isXmlTarget] using h2
    have hne : t ≠ [] := h1.ne_nil
    rw [e2]
    cases s with
    | nil =>
      rw [List.nil_append, xmlRun_cons, step_ok (by decide)]
      simp only [XState.char, hne, hx, show nameChar '?' = false by decide, Bool.false_eq_true, if_false, if_true]
      rfl
    | cons d ds =>
      have hd := h4 d ds rfl
      rw [List.cons_append, xmlRun_cons, step_ok (ws_xmlChar hd)]
      simp only [XState.char, hne, hx, ws_not_name hd, hd, ws_ne hd '?' (by decide), Bool.false_eq_true, if_false,
        if_true]
      rw [xmlRun_append]
      obtain ⟨q, e3⟩ := run_piData (pieces := pieces) ds { st with mode := .piData false } false rfl
        (fun x hx => h3 x (by simp [hx])) (fun hh => h5 (hh.trans ⟨[d], [], by simp⟩))
      rw [e3]
      rw [xmlRun_cons, step_ok (by decide), xmlRun_cons, step_ok (by decide), xmlRun_nil]
      simp [XState.char]

theorem run_cdataSection (s : Str) (h : (Piece.cdata s).Ok) (st : XState) (k : Nat) (hm : st.mode = .content k)
    (hs : st.stack ≠ []) :
    st.run pieces (Piece.cdata s).text = { st with mode := .content 0, text := st.text ++ s } := by
  obtain ⟨h1, h2⟩ := h
  have hlt : st.step pieces '<' = { st with mode := .lt } := by
    rw [step_ok (by decide)]
    simp [XState.char, hm]
  show st.run pieces (['<', '!', '[', 'C', 'D', 'A', 'T', 'A', '['] ++ (s ++ [']', ']', '>'])) = _
  have e : st.run pieces ['<', '!', '[', 'C', 'D', 'A', 'T', 'A', '['] = { st with mode := .cdata [] } := by
    rw [xmlRun_cons, hlt]
    simp [XState.run, XState.step, XState.char, kwComment, kwCdata, hs,
      show xmlChar '!' = true by decide, show xmlChar '[' = true by decide, show xmlChar 'C' = true by decide,
      show xmlChar 'D' = true by decide, show xmlChar 'A' = true by decide, show xmlChar 'T' = true by decide]
  rw [xmlRun_append, e, xmlRun_append, run_cdata s _ [] rfl h1 (by simpa using h2)]
  simp [XState.run, XState.step, XState.char, show xmlChar ']' = true by decide, show xmlChar '>' = true by decide]

/-! ## The root element and the document -/

/-- The pieces of an element that is open. -/
theorem run_pieces : ∀ (ps : List Piece) (st : XState) (k : Nat), (∀ p ∈ ps, p.Ok) → st.mode = .content k →
    Nested st.stack ps → st.stack ≠ [] → NoEnd k ps → ∃ j, st.run pieces (ps.flatMap Piece.text) =
      { mode := .content j, stack := [], done := true, text := []
        events := st.events ++ pieceEvents (textEvents pieces) st.text ps }
  | [], st, k, _, _, hn, hs, _ => absurd hn (by simpa [Nested] using hs)
  | p :: ps, st, k, hp, hm, hn, hs, he => by
    have h0 := hp p (by simp)
    have h1 : ∀ q ∈ ps, q.Ok := fun q hq => hp q (by simp [hq])
    obtain ⟨t, stack, hst⟩ : ∃ t r, st.stack = t :: r := by
      cases e : st.stack with
      | nil => exact absurd e hs
      | cons t r => exact ⟨t, r, rfl⟩
    have hopen : st.stack = [] → st.done = false := fun h => absurd h hs
    rw [List.flatMap_cons, xmlRun_append]
    rw [hst] at hn
    cases p with
    | start u as ws =>
      rw [run_start u h0.1 as h0.2.1 ws h0.2.2 st k hm hopen]
      obtain ⟨j, e⟩ := run_pieces ps (st.start pieces u (as.map AttForm.pair)) 0 h1 rfl (by
        show Nested (u :: st.stack) ps
        rw [hst]; exact hn) (by simp [XState.start]) he
      refine ⟨j, ?_⟩
      rw [e]
      simp [XState.start, pieceEvents]
    | empty u as ws =>
      rw [run_empty u h0.1 as h0.2.1 ws h0.2.2 st k hm hopen]
      have ee : st.empty pieces u (as.map AttForm.pair) = ⟨.content 0, st.stack, false, [],
          st.events ++ textEvents pieces st.text ++ [.start u (as.map AttForm.pair), .close u]⟩ := by
        simp [XState.empty, XState.start, XState.close, textEvents, hst]
      rw [ee]
      obtain ⟨j, e⟩ := run_pieces ps ⟨.content 0, st.stack, false, [],
          st.events ++ textEvents pieces st.text ++ [.start u (as.map AttForm.pair), .close u]⟩ 0 h1 rfl (by
        show Nested st.stack ps
        rw [hst]; exact hn) hs he
      refine ⟨j, ?_⟩
      rw [e]
      simp [pieceEvents]
    | close u ws =>
      obtain ⟨rfl, hn⟩ := hn
      rw [run_close u h0.1 ws h0.2 st k hm]
      have ee : st.close pieces u = ⟨.content 0, stack, stack.isEmpty, [],
          st.events ++ textEvents pieces st.text ++ [.close u]⟩ := by
        simp [XState.close, hst]
      rw [ee]
      cases stack with
      | nil =>
        have : ps = [] := by
          cases ps with
          | nil => rfl
          | cons a b => simp [Nested] at hn
        subst this
        refine ⟨0, ?_⟩
        simp [XState.run, pieceEvents]
      | cons a b =>
        obtain ⟨j, e⟩ := run_pieces ps ⟨.content 0, a :: b, (a :: b).isEmpty, [],
          st.events ++ textEvents pieces st.text ++ [.close u]⟩ 0 h1 rfl hn (by simp) he
        refine ⟨j, ?_⟩
        rw [e]
        simp [pieceEvents]
    | char f =>
      rw [show (Piece.char f).text = f.text from rfl, run_char (pieces := pieces) f h0 st k hm hs he.1]
      obtain ⟨j, e⟩ := run_pieces ps { st with mode := .content (afterChar k f), text := st.text ++ [f.char] } _ h1 rfl (by
        show Nested st.stack ps
        rw [hst]; exact hn) hs he.2
      exact ⟨j, e⟩
    | cdata s =>
      rw [run_cdataSection s h0 st k hm hs]
      obtain ⟨j, e⟩ := run_pieces ps { st with mode := .content 0, text := st.text ++ s } 0 h1 rfl (by
        show Nested st.stack ps
        rw [hst]; exact hn) hs he
      exact ⟨j, e⟩
    | aside a =>
      rw [show (Piece.aside a).text = a.text from rfl, run_aside a h0 st k hm]
      obtain ⟨j, e⟩ := run_pieces ps { st with mode := .content 0 } 0 h1 rfl (by
        show Nested st.stack ps
        rw [hst]; exact hn) hs he
      exact ⟨j, e⟩

/-- What stands around the root element changes nothing. -/
theorem run_misc (m : Misc) (h : m.Ok) (st : XState) (k : Nat) (hm : st.mode = .content k) (hs : st.stack = []) :
    ∃ j, st.run pieces m.text = { st with mode := .content j } := by
  have key : ∀ (l : List (Str × Aside)), (∀ p ∈ l, Spaces p.1 ∧ p.2.Ok) → ∀ (st : XState) (k : Nat),
      st.mode = .content k → st.stack = [] →
      ∃ j, st.run pieces (l.flatMap fun p => p.1 ++ p.2.text) = { st with mode := .content j } := by
    intro l
    induction l with
    | nil => intro _ st k hm _; exact ⟨k, by rw [List.flatMap_nil, xmlRun_nil, ← hm]⟩
    | cons p l ih =>
      intro h st k hm hs
      obtain ⟨h1, h2⟩ := h p (by simp)
      rw [List.flatMap_cons, xmlRun_append, xmlRun_append, run_outside_ws p.1 st k hm hs h1, run_aside p.2 h2 st k hm]
      exact ih (fun q hq => h q (by simp [hq])) { st with mode := .content 0 } 0 rfl hs
  obtain ⟨j, e⟩ := key m.items h.items st k hm hs
  refine ⟨j, ?_⟩
  rw [Misc.text, xmlRun_append, e, run_outside_ws m.last { st with mode := .content j } j rfl hs h.last]

/-- The root element. -/
theorem run_root (ps : List Piece) (hp : ∀ p ∈ ps, p.Ok) (hr : RootOk ps)
    (he : ¬ [.char (.raw ']'), .char (.raw ']'), .char (.raw '>')] <:+: ps) (k : Nat) :
    ∃ j, ({ mode := .content k } : XState).run pieces (ps.flatMap Piece.text) =
      { mode := .content j, stack := [], done := true, text := [], events := pieceEvents (textEvents pieces) [] ps } := by
  cases ps with
  | nil => exact absurd hr (by simp [RootOk])
  | cons p ps =>
    have h0 := hp p (by simp)
    have h1 : ∀ q ∈ ps, q.Ok := fun q hq => hp q (by simp [hq])
    have h2 : NoEnd 0 ps := (noEnd_iff ps 0 (by omega)).mpr fun h => he (h.trans ⟨[p], [], by simp⟩)
    rw [List.flatMap_cons, xmlRun_append]
    cases p with
    | start u as ws =>
      rw [run_start u h0.1 as h0.2.1 ws h0.2.2 _ k rfl (fun _ => rfl)]
      obtain ⟨j, e⟩ := run_pieces (pieces := pieces) ps
        (({ mode := .content k } : XState).start pieces u (as.map AttForm.pair)) 0 h1 rfl hr (by simp [XState.start]) h2
      refine ⟨j, ?_⟩
      rw [e]
      simp [XState.start, pieceEvents]
    | empty u as ws =>
      have : ps = [] := hr
      subst this
      rw [run_empty u h0.1 as h0.2.1 ws h0.2.2 _ k rfl (fun _ => rfl)]
      refine ⟨0, ?_⟩
      simp [XState.run, XState.empty, XState.start, XState.close, textEvents, pieceEvents]
    | close u ws => exact absurd hr (by simp [RootOk])
    | char f => exact absurd hr (by simp [RootOk])
    | cdata s => exact absurd hr (by simp [RootOk])
    | aside a => exact absurd hr (by simp [RootOk])

/-! ## The declaration -/

theorem afterPi_append : ∀ (r rest : Str), ¬ ['?', '>'] <:+: r → afterPi (r ++ '?' :: '>' :: rest) = some rest
  | [], rest, _ => rfl
  | c :: r, rest, h => by
    have hr : ¬ ['?', '>'] <:+: r := fun hh => h (hh.trans ⟨[c], [], by simp⟩)
    rw [List.cons_append, afterPi]
    · exact afterPi_append r rest hr
    · intro t hc heq
      subst hc
      cases r with
      | nil => simp at heq
      | cons d r =>
        simp only [List.cons_append, List.cons.injEq] at heq
        obtain ⟨rfl, -⟩ := heq
        exact h ⟨[], r, rfl⟩

theorem dropDecl_none {s : Str} (h : ∀ c t, s = '<' :: '?' :: 'x' :: 'm' :: 'l' :: c :: t → xmlWs c = false) :
    dropDecl s = some s := by
  unfold dropDecl
  split
  · rename_i c t
    rw [h c t rfl]
    simp
  · rfl

theorem aside_text_decl (a : Aside) (h : a.Ok) (rest : Str) (c : Char) (t : Str)
    (e : a.text ++ rest = '<' :: '?' :: 'x' :: 'm' :: 'l' :: c :: t) : xmlWs c = false := by
  cases a with
  | comment s => simp [Aside.text] at e
  | pi n s =>
    obtain ⟨h1, h2, h3, h4, h5⟩ := h
    cases hc : xmlWs c
    · rfl
    · exfalso
      simp only [Aside.text, List.cons_append, List.nil_append, List.cons.injEq, true_and, List.append_assoc] at e
      have e1 : (n ++ (s ++ ('?' :: '>' :: rest))).takeWhile nameChar = n := by
        rw [List.takeWhile_append_of_pos (fun x hx => (h1.rest x hx).1)]
        have : (s ++ ('?' :: '>' :: rest)).takeWhile nameChar = [] := by
          cases s with
          | nil => simp [show nameChar '?' = false by decide]
          | cons d ds => simp [ws_not_name (h4 d ds rfl)]
        rw [this, List.append_nil]
      have e2 : ('x' :: 'm' :: 'l' :: c :: t).takeWhile nameChar = ['x', 'm', 'l'] := by
        simp [List.takeWhile_cons, ws_not_name hc, show nameChar 'x' = true by decide, show nameChar 'm' = true by decide,
          show nameChar 'l' = true by decide]
      rw [e, e2] at e1
      rw [← e1] at h2
      exact h2 (by decide)

theorem dropDecl_form (x : XmlForm) (h : x.Ok) :
    dropDecl x.text = some (x.pre.text ++ (x.body.flatMap Piece.text ++ x.post.text)) := by
  unfold XmlForm.text
  cases hd : x.decl with
  | some d =>
    obtain ⟨⟨c, r, rfl, hc⟩, hi⟩ := h.decl d hd
    have hr : ¬ ['?', '>'] <:+: r := fun hh => hi (hh.trans ⟨[c], [], by simp⟩)
    have e : declText (some (c :: r)) ++ (x.pre.text ++ (x.body.flatMap Piece.text ++ x.post.text)) =
        '<' :: '?' :: 'x' :: 'm' :: 'l' :: c :: (r ++ '?' :: '>' :: (x.pre.text ++ (x.body.flatMap Piece.text ++ x.post.text))) := by
      simp [declText]
    rw [e, dropDecl, if_pos hc, afterPi_append r _ hr]
  | none =>
    simp only [declText, List.nil_append]
    apply dropDecl_none
    intro c t e
    have ws_first : ∀ (w y : Str), Spaces w → w ++ y = '<' :: '?' :: 'x' :: 'm' :: 'l' :: c :: t →
        y = '<' :: '?' :: 'x' :: 'm' :: 'l' :: c :: t := by
      intro w y hw e
      cases w with
      | nil => exact e
      | cons a b =>
        simp only [List.cons_append, List.cons.injEq] at e
        exact absurd e.1 (ws_ne (hw a (by simp)) '<' (by decide))
    rw [Misc.text, List.append_assoc] at e
    cases hit : x.pre.items with
    | nil =>
      rw [hit, List.flatMap_nil, List.nil_append] at e
      have e := ws_first _ _ h.pre.last e
      have hroot := h.root
      cases hb : x.body with
      | nil => rw [hb] at hroot; exact absurd hroot (by simp [RootOk])
      | cons p ps =>
        rw [hb] at e hroot
        have hp := h.body p (by rw [hb]; simp)
        have start_no : ∀ (u : Str) (y : Str), XmlName u → '<' :: (u ++ y) = '<' :: '?' :: 'x' :: 'm' :: 'l' :: c :: t →
            False := by
          intro u y hu e
          obtain ⟨a, b, rfl, ha, _⟩ := hu.tail
          simp only [List.cons_append, List.cons.injEq, true_and] at e
          exact name_ne (nameStart_name ha) '?' (by decide) e.1
        cases p with
        | start u as ws =>
          simp only [List.flatMap_cons, Piece.text, List.cons_append, List.append_assoc] at e
          exact (start_no u _ hp.1 e).elim
        | empty u as ws =>
          simp only [List.flatMap_cons, Piece.text, List.cons_append, List.append_assoc] at e
          exact (start_no u _ hp.1 e).elim
        | close u ws => exact absurd hroot (by simp [RootOk])
        | char f => exact absurd hroot (by simp [RootOk])
        | cdata s => exact absurd hroot (by simp [RootOk])
        | aside a => exact absurd hroot (by simp [RootOk])
    | cons p l =>
      rw [hit, List.flatMap_cons, List.append_assoc, List.append_assoc] at e
      obtain ⟨h1, h2⟩ := h.pre.items p (by rw [hit]; simp)
      exact aside_text_decl p.2 h2 _ c t (ws_first _ _ h1 e)

/-! ## Bytes -/

theorem utf8Run_encode : ∀ (s : Str) (n : Nat), (s.flatMap String.utf8EncodeChar).length ≤ n →
    utf8Run n (s.flatMap String.utf8EncodeChar) = (s, true)
  | [], 0, _ => rfl
  | [], n + 1, _ => rfl
  | c :: s, 0, h => by
    rw [List.flatMap_cons, List.length_append, String.length_utf8EncodeChar] at h
    have := c.utf8Size_pos
    omega
  | c :: s, n + 1, h => by
    have hl := String.length_utf8EncodeChar c
    have hp := c.utf8Size_pos
    have h4 := c.utf8Size_le_four
    rw [List.flatMap_cons] at h ⊢
    rw [List.length_append, hl] at h
    have hne : (String.utf8EncodeChar c ++ s.flatMap String.utf8EncodeChar).isEmpty = false := by
      rw [List.isEmpty_eq_false_iff]
      intro e
      have := congrArg List.length e
      rw [List.length_append, hl] at this
      simp at this
      omega
    have htake : ((String.utf8EncodeChar c ++ s.flatMap String.utf8EncodeChar).take 4).toByteArray.utf8DecodeChar? 0 =
        some c := by
      rw [List.take_append, List.take_of_length_le (by omega), List.toByteArray_append]
      exact ByteArray.utf8DecodeChar?_utf8EncodeChar_append
    rw [utf8Run, hne]
    simp only [Bool.false_eq_true, if_false, htake]
    rw [← hl, List.drop_left, utf8Run_encode s n (by omega)]

theorem dropMark_none {s : Str} (h : ∀ c t, s = c :: t → c.toNat ≠ 0xFEFF) : dropMark s = s := by
  cases s with
  | nil => rfl
  | cons c t => rw [dropMark, if_neg (h c t rfl)]

end Rxls
