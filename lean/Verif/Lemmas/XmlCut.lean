import Verif.Lemmas.XmlText

/-! # Documents that are cut off -/

namespace Rxls

variable {pieces : Str → List Str}

/-- Events are only added. -/
theorem step_events (st : XState) (c : Char) : st.events <+: (st.step pieces c).events := by
  unfold XState.step
  split
  · unfold XState.char XState.empty XState.start XState.close
    repeat' first
      | exact List.prefix_refl _
      | (simp only [List.append_assoc]; exact List.prefix_append _ _)
      | split
      | (simp only []; split)
  · exact List.prefix_refl _

theorem run_events : ∀ (s : Str) (st : XState), st.events <+: (st.run pieces s).events
  | [], _ => List.prefix_refl _
  | c :: s, st => (step_events st c).trans (run_events s _)

/-- The root element is closed and no tag is begun. -/
structure XState.Sealed (st : XState) : Prop where
  stack : st.stack = []
  done : st.done = true
  mode : (∀ n, st.mode ≠ .openName n) ∧ (∀ n as w, st.mode ≠ .inTag n as w) ∧ (∀ n as, st.mode ≠ .slash n as) ∧
    (∀ n as a, st.mode ≠ .attName n as a) ∧ (∀ n as a, st.mode ≠ .attEq n as a) ∧ (∀ n as a, st.mode ≠ .attQuote n as a) ∧
    (∀ n as a q v, st.mode ≠ .attVal n as a q v) ∧ (∀ n as a q v r, st.mode ≠ .attRef n as a q v r)

theorem sealed_step {st : XState} (h : st.Sealed) (c : Char) : (st.step pieces c).Sealed := by
  obtain ⟨h1, h2, h3, h4, h5, h6, h7, h8, h9, h10⟩ := h
  unfold XState.step
  split
  · unfold XState.char XState.close
    rw [h1, h2]
    split <;> first
      | (rename_i hm; first
          | exact absurd hm (h3 _) | exact absurd hm (h4 _ _ _) | exact absurd hm (h5 _ _) | exact absurd hm (h6 _ _ _)
          | exact absurd hm (h7 _ _ _) | exact absurd hm (h8 _ _ _) | exact absurd hm (h9 _ _ _ _ _)
          | exact absurd hm (h10 _ _ _ _ _ _))
      | skip
    all_goals
      simp only [and_self, if_true]
      repeat' first
        | exact ⟨h1, h2, h3, h4, h5, h6, h7, h8, h9, h10⟩
        | (refine ⟨rfl, rfl, ?_⟩; simp)
        | split
  · exact ⟨h1, h2, by simp⟩

theorem sealed_run : ∀ (s : Str) {st : XState}, st.Sealed → (st.run pieces s).Sealed
  | [], _, h => h
  | c :: s, _, h => sealed_run s (sealed_step h c)

theorem complete_sealed {st : XState} (h : st.complete = true) : st.Sealed := by
  unfold XState.complete at h
  split at h
  · rename_i hm
    simp only [Bool.and_eq_true, List.isEmpty_iff] at h
    exact ⟨h.1, h.2, by simp [hm]⟩
  · cases h

/-- Before the last character of the root element some element is open. -/
theorem pieces_open : ∀ (ps : List Piece) (st : XState) (k : Nat), (∀ p ∈ ps, p.Ok) → st.mode = .content k →
    Nested st.stack ps → st.stack ≠ [] → NoEnd k ps →
    ∃ b, ps.flatMap Piece.text = b ++ ['>'] ∧ (st.run pieces b).stack ≠ []
  | [], st, k, _, _, hn, hs, _ => absurd hn (by simpa [Nested] using hs)
  | p :: ps, st, k, hp, hm, hn, hs, he => by
    have h0 := hp p (by simp)
    have h1 : ∀ q ∈ ps, q.Ok := fun q hq => hp q (by simp [hq])
    obtain ⟨t, stack, hst⟩ : ∃ t r, st.stack = t :: r := by
      cases e : st.stack with
      | nil => exact absurd e hs
      | cons t r => exact ⟨t, r, rfl⟩
    have hopen : st.stack = [] → st.done = false := fun h => absurd h hs
    -- the state after the first piece, unless it closes the root element
    have next : ∀ (st' : XState) (k' : Nat), st.run pieces p.text = st' → st'.mode = .content k' → Nested st'.stack ps →
        st'.stack ≠ [] → NoEnd k' ps → ∃ b, (p :: ps).flatMap Piece.text = b ++ ['>'] ∧ (st.run pieces b).stack ≠ [] := by
      intro st' k' e hm' hn' hs' he'
      obtain ⟨b, hb, hbs⟩ := pieces_open ps st' k' h1 hm' hn' hs' he'
      refine ⟨p.text ++ b, by rw [List.flatMap_cons, hb, List.append_assoc], ?_⟩
      rw [xmlRun_append, e]
      exact hbs
    rw [hst] at hn
    cases p with
    | start u as ws =>
      exact next _ 0 (run_start u h0.1 as h0.2.1 ws h0.2.2 st k hm hopen) rfl (by
        show Nested (u :: st.stack) ps
        rw [hst]; exact hn) (by simp [XState.start]) he
    | empty u as ws =>
      have ee : st.empty pieces u (as.map AttForm.pair) = ⟨.content 0, st.stack, false, [],
          st.events ++ textEvents pieces st.text ++ [.start u (as.map AttForm.pair), .close u]⟩ := by
        simp [XState.empty, XState.start, XState.close, textEvents, hst]
      exact next _ 0 ((run_empty u h0.1 as h0.2.1 ws h0.2.2 st k hm hopen).trans ee) rfl (by
        show Nested st.stack ps
        rw [hst]; exact hn) hs he
    | close u ws =>
      obtain ⟨rfl, hn⟩ := hn
      cases stack with
      | nil =>
        have : ps = [] := by
          cases ps with
          | nil => rfl
          | cons a b => simp [Nested] at hn
        subst this
        refine ⟨'<' :: '/' :: (u ++ ws), by simp [Piece.text], ?_⟩
        rw [xmlRun_cons, step_ok (by decide), xmlRun_cons, step_ok (by decide)]
        simp only [XState.char, hm, if_true]
        rw [xmlRun_append, run_closeName u _ [] rfl h0.1.rest, List.nil_append]
        cases ws with
        | nil => exact hs
        | cons d ds =>
          have hd := h0.2 d (by simp)
          rw [xmlRun_cons, step_ok (ws_xmlChar hd)]
          simp only [XState.char, ws_not_name hd, hd, if_true, Bool.false_eq_true, if_false]
          rw [run_closeWs_ws ds _ u rfl (fun x hx => h0.2 x (by simp [hx]))]
          exact hs
      | cons a b =>
        have ee : st.close pieces u = ⟨.content 0, a :: b, false, [],
            st.events ++ textEvents pieces st.text ++ [.close u]⟩ := by
          simp [XState.close, hst]
        exact next _ 0 ((run_close u h0.1 ws h0.2 st k hm).trans ee) rfl hn (by simp) he
    | char f =>
      exact next _ _ (run_char (pieces := pieces) f h0 st k hm hs he.1) rfl (by
        show Nested st.stack ps
        rw [hst]; exact hn) hs he.2
    | cdata s =>
      exact next _ 0 (run_cdataSection s h0 st k hm hs) rfl (by
        show Nested st.stack ps
        rw [hst]; exact hn) hs he
    | aside a =>
      exact next _ 0 (run_aside a h0 st k hm) rfl (by
        show Nested st.stack ps
        rw [hst]; exact hn) hs he

/-- The root element up to its last character is not complete, nor is any part of it. -/
theorem root_open (ps : List Piece) (hp : ∀ p ∈ ps, p.Ok) (hr : RootOk ps)
    (he : ¬ [.char (.raw ']'), .char (.raw ']'), .char (.raw '>')] <:+: ps) (k : Nat) :
    ∃ b, ps.flatMap Piece.text = b ++ ['>'] ∧ ¬ (({ mode := .content k } : XState).run pieces b).Sealed := by
  cases ps with
  | nil => exact absurd hr (by simp [RootOk])
  | cons p ps =>
    have h0 := hp p (by simp)
    have h1 : ∀ q ∈ ps, q.Ok := fun q hq => hp q (by simp [hq])
    have h2 : NoEnd 0 ps := (noEnd_iff ps 0 (by omega)).mpr fun h => he (h.trans ⟨[p], [], by simp⟩)
    cases p with
    | start u as ws =>
      obtain ⟨b, hb, hbs⟩ := pieces_open (pieces := pieces) ps
        (({ mode := .content k } : XState).start pieces u (as.map AttForm.pair)) 0 h1 rfl hr (by simp [XState.start]) h2
      refine ⟨(Piece.start u as ws).text ++ b, by rw [List.flatMap_cons, hb, List.append_assoc], ?_⟩
      rw [xmlRun_append, run_start u h0.1 as h0.2.1 ws h0.2.2 _ k rfl (fun _ => rfl)]
      exact fun h => hbs h.stack
    | empty u as ws =>
      have : ps = [] := hr
      subst this
      refine ⟨'<' :: (u ++ (as.flatMap AttForm.text ++ ws)) ++ ['/'], by simp [Piece.text], ?_⟩
      obtain ⟨m, e, h⟩ := run_tag (pieces := pieces) u h0.1 as h0.2.1 ws h0.2.2 { mode := .content k } k rfl (fun _ => rfl)
      rw [xmlRun_append, e, xmlRun_cons, step_ok (by decide), xmlRun_nil]
      rcases h with ⟨rfl, rfl⟩ | ⟨w, rfl⟩
      · simp only [XState.char, show nameChar '/' = false by decide, show xmlWs '/' = false by decide, Bool.false_eq_true,
          if_false, if_true]
        exact fun h => by have := h.done; cases this
      · simp only [XState.char, show xmlWs '/' = false by decide, Bool.false_eq_true, if_false, if_true]
        exact fun h => by have := h.done; cases this
    | close u ws => exact absurd hr (by simp [RootOk])
    | char f => exact absurd hr (by simp [RootOk])
    | cdata s => exact absurd hr (by simp [RootOk])
    | aside a => exact absurd hr (by simp [RootOk])

/-- A document cut off inside its root element: not complete, and its events are the first events of the document. -/
theorem cut_main (x : XmlForm) (h : x.Ok) (p q : Str)
    (e : p ++ q = x.pre.text ++ (x.body.flatMap Piece.text ++ x.post.text)) (hq : x.post.text.length < q.length) :
    (({} : XState).run pieces p).complete = false ∧ (({} : XState).run pieces p).events <+: x.events pieces := by
  obtain ⟨k, e1⟩ := run_misc (pieces := pieces) x.pre h.pre {} 0 rfl rfl
  obtain ⟨b, hb, hbo⟩ := root_open (pieces := pieces) x.body h.body h.root h.brackets k
  obtain ⟨j, e2⟩ := run_root (pieces := pieces) x.body h.body h.root h.brackets k
  obtain ⟨j', e3⟩ := run_misc (pieces := pieces) x.post h.post ⟨.content j, [], true, [], pieceEvents (textEvents pieces) [] x.body⟩
    j rfl rfl
  have hall : (({} : XState).run pieces (p ++ q)).events = x.events pieces := by
    rw [e, xmlRun_append, e1, xmlRun_append, e2, e3]
    rfl
  refine ⟨?_, ?_⟩
  · have hle : p.length ≤ (x.pre.text ++ b).length := by
      have := congrArg List.length e
      rw [hb] at this
      simp only [List.length_append, List.length_cons, List.length_nil] at this ⊢
      omega
    have hpre : p <+: x.pre.text ++ b := by
      have h1 : p <+: x.pre.text ++ (x.body.flatMap Piece.text ++ x.post.text) := ⟨q, e⟩
      have h2 : x.pre.text ++ b <+: x.pre.text ++ (x.body.flatMap Piece.text ++ x.post.text) :=
        ⟨['>'] ++ x.post.text, by rw [hb]; simp⟩
      exact List.prefix_of_prefix_length_le h1 h2 hle
    obtain ⟨r, hr⟩ := hpre
    cases hc : (({} : XState).run pieces p).complete
    · rfl
    · exfalso
      have := sealed_run (pieces := pieces) r (complete_sealed hc)
      rw [← xmlRun_append, hr, xmlRun_append, e1] at this
      exact hbo this
  · rw [← hall, xmlRun_append]
    exact run_events q _

theorem afterPi_some : ∀ (s t : Str), afterPi s = some t → ∃ u, s = u ++ '?' :: '>' :: t
  | [], t, h => by cases h
  | c :: s, t, h => by
    unfold afterPi at h
    split at h
    · rename_i r
      rw [Option.some.inj h]
      exact ⟨[], rfl⟩
    · obtain ⟨u, hu⟩ := afterPi_some s t h
      exact ⟨c :: u, by rw [hu]; rfl⟩

/-- A declaration that is cut off. -/
theorem cut_decl (c : Char) (r p q : Str) (hc : xmlWs c = true) (hr : ¬ ['?', '>'] <:+: r)
    (e : p ++ q = '<' :: '?' :: 'x' :: 'm' :: 'l' :: c :: (r ++ ['?', '>'])) (hq : q ≠ []) :
    dropDecl p = none ∨ (dropDecl p = some p ∧ (({} : XState).run pieces p).complete = false ∧
      (({} : XState).run pieces p).events = []) := by
  rcases p with _ | ⟨p1, p⟩
  · exact .inr ⟨rfl, rfl, rfl⟩
  simp only [List.cons_append, List.cons.injEq] at e
  obtain ⟨rfl, e⟩ := e
  rcases p with _ | ⟨p1, p⟩
  · exact .inr ⟨rfl, rfl, rfl⟩
  simp only [List.cons_append, List.cons.injEq] at e
  obtain ⟨rfl, e⟩ := e
  rcases p with _ | ⟨p1, p⟩
  · exact .inr ⟨rfl, rfl, rfl⟩
  simp only [List.cons_append, List.cons.injEq] at e
  obtain ⟨rfl, e⟩ := e
  rcases p with _ | ⟨p1, p⟩
  · exact .inr ⟨rfl, rfl, rfl⟩
  simp only [List.cons_append, List.cons.injEq] at e
  obtain ⟨rfl, e⟩ := e
  rcases p with _ | ⟨p1, p⟩
  · exact .inr ⟨rfl, rfl, rfl⟩
  simp only [List.cons_append, List.cons.injEq] at e
  obtain ⟨rfl, e⟩ := e
  rcases p with _ | ⟨p1, p⟩
  · exact .inr ⟨rfl, rfl, rfl⟩
  simp only [List.cons_append, List.cons.injEq] at e
  obtain ⟨rfl, e⟩ := e
  left
  rw [dropDecl, if_pos hc]
  cases ha : afterPi p with
  | none => rfl
  | some t =>
    exfalso
    obtain ⟨u, rfl⟩ := afterPi_some p t ha
    obtain ⟨q', z, rfl⟩ : ∃ q' z, q = q' ++ [z] := by
      rcases List.eq_nil_or_concat q with h | ⟨a, b, h⟩
      · exact absurd h hq
      · exact ⟨a, b, by simpa using h⟩
    have e2 : (u ++ '?' :: '>' :: t ++ q') ++ [z] = (r ++ ['?']) ++ ['>'] := by simpa using e
    have e3 := (List.append_inj' e2 rfl).1
    rcases List.eq_nil_or_concat (t ++ q') with h | ⟨a, b, h⟩
    · have e4 : (u ++ ['?']) ++ ['>'] = r ++ ['?'] := by rw [← e3]; simp [h]
      have := (List.append_inj' e4 rfl).2
      simp at this
    · have e4 : (u ++ '?' :: '>' :: a) ++ [b] = r ++ ['?'] := by
        rw [← e3]
        simp only [List.append_assoc, List.cons_append, h]
        simp
      have := (List.append_inj' e4 rfl).1
      exact hr ⟨u, a, by rw [← this]; simp⟩

end Rxls
