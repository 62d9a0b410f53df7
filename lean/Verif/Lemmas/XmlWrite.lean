import Verif.Lemmas.XmlText
import Verif.Spec.XmlWrite

/-! # Documents of the reference writer -/

namespace Rxls

/-! ## Line ends -/

theorem normEol_plain : ∀ (s : Str), '\r' ∉ s → normEol s = s
  | [], _ => rfl
  | c :: s, h => by
    have hc : c ≠ '\r' := fun e => h (by rw [e]; simp)
    have := normEol_plain s fun hh => h (by simp [hh])
    unfold normEol
    rw [if_neg hc, this]

theorem lineEnds_normEol : ∀ (n : Nat) (s : Str), s.length ≤ n → LineEnds s (normEol s) := by
  intro n
  induction n with
  | zero =>
    intro s hl
    have : s = [] := List.length_eq_zero_iff.mp (by omega)
    subst this
    exact .nil
  | succ n ih =>
    intro s hl
    cases s with
    | nil => exact .nil
    | cons c s =>
      have hl' : s.length ≤ n := by simpa using hl
      clear hl
      rw [normEol.eq_def]
      simp only
      by_cases hc : c = '\r'
      · rw [if_pos hc]
        subst hc
        split
        · rename_i t
          exact .crlf (ih _ (by simp at hl'; omega))
        · rename_i hs
          refine .cr ?_ (ih s hl')
          cases s with
          | nil => simp
          | cons d s =>
            simp only [List.head?_cons, ne_eq, Option.some.injEq]
            rintro rfl
            exact hs s rfl
      · rw [if_neg hc]
        exact .char hc (ih s hl')

/-- Line ends as the parser treats them. -/
theorem lineEnds_iff (s t : Str) : LineEnds s t ↔ normEol s = t := by
  constructor
  · intro h
    induction h with
    | nil => rfl
    | char hc _ ih =>
      rw [normEol.eq_def]
      simp only
      rw [if_neg hc, ih]
    | crlf _ ih =>
      rw [normEol.eq_def]
      simp only [if_true, ih]
    | @cr s t hs _ ih =>
      rw [normEol.eq_def]
      simp only [if_true]
      split
      · simp at hs
      · rw [ih]
  · rintro rfl
    exact lineEnds_normEol _ s (le_refl _)

/-! ## Forms -/

theorem textForm_ok (c : Char) (h : xmlChar c = true) : (textForm c).Ok [] ∧ (textForm c).char = c ∧
    '\r' ∉ (textForm c).text := by
  unfold textForm
  by_cases h1 : c = '<' ∨ c = '>' ∨ c = '&'
  · rw [if_pos h1]
    rcases h1 with rfl | rfl | rfl <;> exact ⟨by simp [CForm.Ok], rfl, by decide⟩
  · rw [if_neg h1]
    by_cases h2 : c = '\r'
    · rw [if_pos h2, h2]
      exact ⟨⟨by simp, by decide, by unfold CharNum; decide⟩, by decide, by decide⟩
    · rw [if_neg h2]
      simp only [not_or] at h1
      exact ⟨⟨h, h1.1, h1.2.2, by simp⟩, rfl, by simpa [CForm.text] using fun e => h2 e.symm⟩

theorem textForm_ne (c : Char) : textForm c ≠ .raw '>' := by
  unfold textForm
  by_cases h1 : c = '<' ∨ c = '>' ∨ c = '&'
  · rw [if_pos h1]
    simp
  · rw [if_neg h1]
    split
    · simp
    · rintro h
      simp only [CForm.raw.injEq] at h
      exact h1 (.inr (.inl h))

theorem attForm_ok (c : Char) (h : xmlChar c = true) : (attForm c).Ok ['"'] ∧ (attForm c).attChar = c ∧
    '\r' ∉ (attForm c).text := by
  unfold attForm
  by_cases h1 : c = '<' ∨ c = '>' ∨ c = '&' ∨ c = '"'
  · rw [if_pos h1]
    rcases h1 with rfl | rfl | rfl | rfl <;> exact ⟨by simp [CForm.Ok], rfl, by decide⟩
  · rw [if_neg h1]
    by_cases h2 : c = '\t'
    · rw [if_pos h2, h2]
      exact ⟨⟨by simp, by decide, by unfold CharNum; decide⟩, by decide, by decide⟩
    rw [if_neg h2]
    by_cases h3 : c = '\n'
    · rw [if_pos h3, h3]
      exact ⟨⟨by simp, by decide, by unfold CharNum; decide⟩, by decide, by decide⟩
    rw [if_neg h3]
    by_cases h4 : c = '\r'
    · rw [if_pos h4, h4]
      exact ⟨⟨by simp, by decide, by unfold CharNum; decide⟩, by decide, by decide⟩
    rw [if_neg h4]
    simp only [not_or] at h1
    refine ⟨⟨h, h1.1, h1.2.2.1, by simpa using h1.2.2.2⟩, ?_, by simpa [CForm.text] using fun e => h4 e.symm⟩
    simp only [CForm.attChar]
    split
    · rename_i hw
      simp only [xmlWs, Bool.or_eq_true, beq_iff_eq, h2, h3, h4, or_false] at hw
      exact hw.symm
    · rfl

theorem XmlName.no_cr {n : Str} (h : XmlName n) : '\r' ∉ n := fun hh => by
  have := (h.rest _ hh).1
  revert this
  decide

/-! ## Pieces of events -/

theorem writable_pieces {e : Xml} (h : e.Writable) : (∀ p ∈ e.pieces, p.Ok) ∧ '\r' ∉ e.pieces.flatMap Piece.text := by
  cases e with
  | start t as =>
    obtain ⟨h1, h2, h3⟩ := h
    refine ⟨?_, ?_⟩
    · intro p hp
      simp only [Xml.pieces, List.mem_singleton] at hp
      subst hp
      refine ⟨h1, ⟨?_, ?_⟩, by simp [Spaces]⟩
      · intro a ha
        obtain ⟨b, hb, rfl⟩ := List.mem_map.mp ha
        obtain ⟨hb1, hb2⟩ := h3 b hb
        refine ⟨⟨by intro c hc; simp at hc; subst hc; decide, by simp⟩, hb1, ⟨by simp [Spaces], by simp [Spaces]⟩, ?_⟩
        intro f hf
        obtain ⟨c, hc, rfl⟩ := List.mem_map.mp hf
        exact (attForm_ok c (hb2 c hc)).1
      · rw [List.map_map]
        exact h2
    · simp only [Xml.pieces, List.flatMap_cons, List.flatMap_nil, List.append_nil, Piece.text, List.mem_cons,
        List.mem_append, List.mem_flatMap, List.mem_map, not_or, not_exists, not_and, List.nil_append, List.not_mem_nil,
        or_false]
      refine ⟨by decide, h1.no_cr, ?_, by decide⟩
      rintro a ⟨b, hb, rfl⟩
      obtain ⟨hb1, hb2⟩ := h3 b hb
      simp only [AttForm.text, AttForm.quote, List.mem_append, List.mem_cons, List.mem_flatMap, List.mem_map, not_or,
        List.not_mem_nil, or_false, not_exists, not_and, Bool.false_eq_true, if_false, not_false_eq_true, true_and]
      refine ⟨by decide, hb1.no_cr, by decide, by decide, ?_, by decide⟩
      rintro f ⟨c, hc, rfl⟩
      exact (attForm_ok c (hb2 c hc)).2.2
  | text s =>
    obtain ⟨h1, h2, h3⟩ := h
    refine ⟨?_, ?_⟩
    · intro p hp
      obtain ⟨c, hc, rfl⟩ := List.mem_map.mp hp
      exact (textForm_ok c (h2 c hc)).1
    · simp only [Xml.pieces, List.mem_flatMap, List.mem_map, not_exists, not_and]
      rintro p ⟨c, hc, rfl⟩
      exact (textForm_ok c (h2 c hc)).2.2
  | close t =>
    refine ⟨?_, ?_⟩
    · intro p hp
      simp only [Xml.pieces, List.mem_singleton] at hp
      subst hp
      exact ⟨h, by simp [Spaces]⟩
    · simp only [Xml.pieces, List.flatMap_cons, List.flatMap_nil, List.append_nil, Piece.text, List.mem_cons,
        List.mem_append, not_or, List.nil_append, List.not_mem_nil, or_false]
      exact ⟨by decide, by decide, XmlName.no_cr h, by decide⟩

theorem nested_chars (t : Str) (stack : List Str) (ps : List Piece) : ∀ (s : Str),
    Nested (t :: stack) (s.map (fun c => Piece.char (textForm c)) ++ ps) ↔ Nested (t :: stack) ps
  | [] => Iff.rfl
  | c :: s => by
    rw [List.map_cons, List.cons_append]
    exact nested_chars t stack ps s

theorem closes_nested : ∀ (es : List Xml) (stack : List Str), Closes stack es → Nested stack (es.flatMap Xml.pieces)
  | [], stack, h => by
    have : stack = [] := by cases stack <;> simp [Closes] at h ⊢
    subst this
    rfl
  | e :: es, [], h => absurd h (by simp [Closes])
  | .start u as :: es, t :: stack, h => closes_nested es (u :: t :: stack) h
  | .close u :: es, t :: stack, h => ⟨h.1, closes_nested es stack h.2⟩
  | .text s :: es, t :: stack, h => by
    rw [List.flatMap_cons]
    exact (nested_chars t stack _ s).mpr (closes_nested es (t :: stack) h)

theorem pieceEvents_chars (deliver : Str → List Xml) (ps : List Piece) : ∀ (s p : Str), Chars s →
    pieceEvents deliver p (s.map (fun c => Piece.char (textForm c)) ++ ps) = pieceEvents deliver (p ++ s) ps
  | [], p, _ => by simp
  | c :: s, p, h => by
    rw [List.map_cons, List.cons_append, pieceEvents, (textForm_ok c (h c (by simp))).2.1,
      pieceEvents_chars deliver ps s _ fun x hx => h x (by simp [hx])]
    simp

/-- Reading the pieces gives the events back. -/
theorem pieceEvents_pieces (pieces : Str → List Str) (hb : Buffered pieces) : ∀ (es : List Xml),
    (∀ e ∈ es, e.Writable) → NoTwoTexts es → (∀ s, es.getLast? ≠ some (.text s)) →
    pieceEvents (fun s => if s = [] then [] else (pieces s).map .text) [] (es.flatMap Xml.pieces) = es
  | [], _, _, _ => rfl
  | .start t as :: es, h, hn, hl => by
    have h0 : Xml.Writable (.start t as) := h _ (by simp)
    have ha : (as.map fun a => ({ name := a.1, value := a.2.map attForm } : AttForm)).map AttForm.pair = as := by
      rw [List.map_map]
      conv_rhs => rw [← List.map_id as]
      apply List.map_congr_left
      intro a ha
      have := (h0.2.2 a ha).2
      refine Prod.ext rfl ?_
      simp only [Function.comp, AttForm.pair, List.map_map, id]
      conv_rhs => rw [← List.map_id a.2]
      apply List.map_congr_left
      intro c hc
      exact (attForm_ok c (this c hc)).2.1
    have ih := pieceEvents_pieces pieces hb es (fun e he => h e (by simp [he])) (by simpa [NoTwoTexts] using hn) (by
      intro s hs
      cases es with
      | nil => simp at hs
      | cons a b => exact hl s (by simpa using hs))
    rw [List.flatMap_cons]
    show pieceEvents _ [] (Piece.start t _ [] :: es.flatMap Xml.pieces) = _
    rw [pieceEvents, ih, ha]
    simp
  | .close t :: es, h, hn, hl => by
    have ih := pieceEvents_pieces pieces hb es (fun e he => h e (by simp [he])) (by simpa [NoTwoTexts] using hn) (by
      intro s hs
      cases es with
      | nil => simp at hs
      | cons a b => exact hl s (by simpa using hs))
    rw [List.flatMap_cons]
    show pieceEvents _ [] (Piece.close t [] :: es.flatMap Xml.pieces) = _
    rw [pieceEvents, ih]
    simp
  | .text s :: es, h, hn, hl => by
    obtain ⟨h1, h2, h3⟩ : Xml.Writable (.text s) := h _ (by simp)
    rw [List.flatMap_cons]
    show pieceEvents _ [] (s.map (fun c => Piece.char (textForm c)) ++ es.flatMap Xml.pieces) = _
    rw [pieceEvents_chars _ _ s [] h2, List.nil_append]
    cases es with
    | nil => exact absurd rfl (hl s)
    | cons e es =>
      have hn' : NoTwoTexts (e :: es) := by
        cases e with
        | text u => exact absurd hn (by simp [NoTwoTexts])
        | start u a => simpa [NoTwoTexts] using hn
        | close u => simpa [NoTwoTexts] using hn
      have ih := pieceEvents_pieces pieces hb (e :: es) (fun e he => h e (by simp [he])) hn' (by
        intro u hu
        exact hl u (by simpa using hu))
      have hdel : (if s = [] then ([] : List Xml) else (pieces s).map .text) = [.text s] := by
        rw [if_neg h1, hb s h3]; rfl
      cases e with
      | text u => exact absurd hn (by simp [NoTwoTexts])
      | start u a =>
        rw [List.flatMap_cons] at ih ⊢
        have e1 : Xml.pieces (.start u a) ++ es.flatMap Xml.pieces =
          Piece.start u (a.map fun a => { name := a.1, value := a.2.map attForm }) [] :: es.flatMap Xml.pieces := rfl
        rw [e1] at ih ⊢
        rw [pieceEvents] at ih ⊢
        rw [hdel]
        simp only [if_true, List.nil_append] at ih
        rw [ih]
        rfl
      | close u =>
        rw [List.flatMap_cons] at ih ⊢
        have e1 : Xml.pieces (.close u) ++ es.flatMap Xml.pieces = Piece.close u [] :: es.flatMap Xml.pieces := rfl
        rw [e1] at ih ⊢
        rw [pieceEvents] at ih ⊢
        rw [hdel]
        simp only [if_true, List.nil_append] at ih
        rw [ih]
        rfl

theorem closes_last : ∀ (es : List Xml) (t : Str) (stack : List Str), Closes (t :: stack) es →
    ∃ u, es.getLast? = some (.close u)
  | [], t, stack, h => absurd h (by simp [Closes])
  | .start u as :: es, t, stack, h => by
    obtain ⟨v, hv⟩ := closes_last es u (t :: stack) h
    refine ⟨v, ?_⟩
    cases es with
    | nil => simp at hv
    | cons a b => simpa using hv
  | .text s :: es, t, stack, h => by
    obtain ⟨v, hv⟩ := closes_last es t stack h
    refine ⟨v, ?_⟩
    cases es with
    | nil => simp at hv
    | cons a b => simpa using hv
  | .close u :: es, t, stack, h => by
    obtain ⟨rfl, h⟩ := h
    cases stack with
    | nil =>
      cases es with
      | nil => exact ⟨u, rfl⟩
      | cons a b => exact absurd h (by simp [Closes])
    | cons a b =>
      obtain ⟨v, hv⟩ := closes_last es a b h
      refine ⟨v, ?_⟩
      cases es with
      | nil => simp at hv
      | cons a b => simpa using hv

/-- The document of events is written correctly and means them. -/
theorem xmlForm_ok (es : List Xml) (h : XmlTree es) : (xmlForm es).Ok ∧ '\r' ∉ (xmlForm es).text ∧
    ∀ pieces, Buffered pieces → (xmlForm es).events pieces = es := by
  obtain ⟨hw, ⟨t, as, r, rfl, hc⟩, hn⟩ := h
  refine ⟨⟨by intro d hd; simp [xmlForm] at hd, ⟨by simp [xmlForm], by simp [xmlForm, Spaces]⟩, ?_, ?_,
    ?_, ⟨by simp [xmlForm], by simp [xmlForm, Spaces]⟩⟩, ?_, ?_⟩
  · intro p hp
    simp only [xmlForm, List.mem_flatMap] at hp
    obtain ⟨e, he, hp⟩ := hp
    exact (writable_pieces (hw e he)).1 p hp
  · exact closes_nested r [t] hc
  · intro hi
    have hm := hi.mem (a := .char (.raw '>')) (by simp)
    simp only [xmlForm, List.mem_flatMap] at hm
    obtain ⟨e, -, he⟩ := hm
    cases e with
    | start u as => simp [Xml.pieces] at he
    | close u => simp [Xml.pieces] at he
    | text s =>
      simp only [Xml.pieces, List.mem_map, Piece.char.injEq] at he
      obtain ⟨c, -, he⟩ := he
      exact textForm_ne c he
  · have : (xmlForm (.start t as :: r)).text = ((Xml.start t as :: r).flatMap fun e => e.pieces.flatMap Piece.text) := by
      simp only [XmlForm.text, xmlForm, declText, Misc.text, List.flatMap_nil, List.nil_append, List.append_nil,
        List.flatMap_assoc]
    rw [this]
    intro hh
    obtain ⟨e, he, hh⟩ := List.mem_flatMap.mp hh
    exact (writable_pieces (hw e he)).2 hh
  · intro pieces hb
    refine pieceEvents_pieces pieces hb _ hw hn ?_
    intro s hs
    obtain ⟨u, hu⟩ := closes_last r t [] hc
    have : (Xml.start t as :: r).getLast? = some (.close u) := by
      cases r with
      | nil => simp at hu
      | cons a b => simpa using hu
    rw [this] at hs
    cases hs

end Rxls
