import Verif.Spec.Rels
import Verif.Spec.Columns
import Verif.Lemmas.Bits
import Mathlib.Tactic.Ring
import Mathlib.Tactic.Linarith

/-! Lemmas about relationships and column letters. -/

namespace Rxls

theorem attrValue_clean {v : Str} (h : XmlClean v) (rest : Str) :
    ∀ n, v.length < n → attrValue n (v ++ '"' :: rest) = some (v, rest) := by
  induction v with
  | nil =>
    intro n hn
    cases n with
    | zero => simp at hn
    | succ n => simp [attrValue]
  | cons c v ih =>
    intro n hn
    cases n with
    | zero => simp at hn
    | succ n =>
      obtain ⟨h1, h2, h3, h4, h5, h6⟩ := h c (by simp)
      have := ih (fun c hc => h c (by simp [hc])) n (by simp at hn; omega)
      have hr : c ≠ '\r' := by rintro rfl; simp at h4
      have hn' : c ≠ '\n' := by rintro rfl; simp at h4
      have ht : c ≠ '\t' := by rintro rfl; simp at h4
      simp only [List.cons_append, attrValue, h1, h2, h3, hr, hn', ht, if_false, false_or, this]
      have hx : xmlChar c = true := by simp [xmlChar, h4, h5, h6]
      simp [hx]

theorem untilSemi_some : ∀ {s a b : Str}, untilSemi s = some (a, b) → s = a ++ ';' :: b
  | [], a, b, h => by simp [untilSemi] at h
  | c :: s, a, b, h => by
    unfold untilSemi at h
    split at h
    · rename_i hc; cases h; simp [hc]
    · cases hs : untilSemi s with
      | none => rw [hs] at h; cases h
      | some p =>
        obtain ⟨a', b'⟩ := p
        rw [hs] at h
        simp at h
        obtain ⟨rfl, rfl⟩ := h
        rw [untilSemi_some hs]; rfl

theorem digitVal_quote (base : Nat) : digitVal base '"' = none := by
  unfold digitVal
  have h1 : ¬('0' ≤ '"' ∧ '"' ≤ '9') := by decide
  have h2 : ¬('a' ≤ '"' ∧ '"' ≤ 'f') := by decide
  have h3 : ¬('A' ≤ '"' ∧ '"' ≤ 'F') := by decide
  simp [h1, h2, h3]

theorem numVal_noQuote (base : Nat) : ∀ (s : Str) (acc r : Nat), numVal base acc s = some r →
    '"' ∉ s
  | [], _, _, _ => by simp
  | c :: s, acc, r, h => by
    unfold numVal at h
    cases hd : digitVal base c with
    | none => rw [hd] at h; cases h
    | some d =>
      rw [hd] at h
      have := numVal_noQuote base s _ r h
      intro hm
      rcases List.mem_cons.1 hm with hc | hm
      · subst hc; rw [digitVal_quote] at hd; cases hd
      · exact this hm

theorem entity_noQuote {name : Str} {c : Char} (h : entity name = some c) : '"' ∉ name := by
  unfold entity at h
  by_cases c1 : name = ['l', 't']
  · rw [c1]; decide
  by_cases c2 : name = ['g', 't']
  · rw [c2]; decide
  by_cases c3 : name = ['a', 'm', 'p']
  · rw [c3]; decide
  by_cases c4 : name = ['q', 'u', 'o', 't']
  · rw [c4]; decide
  by_cases c5 : name = ['a', 'p', 'o', 's']
  · rw [c5]; decide
  rw [if_neg c1, if_neg c2, if_neg c3, if_neg c4, if_neg c5] at h
  clear c1 c2 c3 c4 c5
  split at h
  · rename_i a b
    cases hn : numVal 16 0 (a :: b) with
    | none => rw [hn] at h; cases h
    | some r =>
      have := numVal_noQuote 16 _ _ _ hn
      intro hm
      apply this
      simpa using hm
  · rename_i a b _
    cases hn : numVal 10 0 (a :: b) with
    | none => rw [hn] at h; cases h
    | some r =>
      have := numVal_noQuote 10 _ _ _ hn
      intro hm
      apply this
      simpa using hm
  · cases h

/-- What a successful read of an attribute value consumed. -/
theorem attrValue_shape : ∀ (n : Nat) (s v r : Str), attrValue n s = some (v, r) →
    ∃ p, s = p ++ '"' :: r ∧ '"' ∉ p ∧ v.length ≤ p.length ∧ (v = p → XmlClean p)
  | 0, s, v, r, h => by simp [attrValue] at h
  | n + 1, [], v, r, h => by simp [attrValue] at h
  | n + 1, c :: s, v, r, h => by
    have step : ∀ (s' : Str) (ch : Char) (k : Str), c :: s = k ++ s' → '"' ∉ k → 1 ≤ k.length →
        ((k = [ch] → XmlClean [ch])) →
        (attrValue n s').map (fun (x : Str × Str) => (ch :: x.1, x.2)) = some (v, r) →
        ∃ p, c :: s = p ++ '"' :: r ∧ '"' ∉ p ∧ v.length ≤ p.length ∧ (v = p → XmlClean p) := by
      intro s' ch k hk hq hl hch hm
      cases ha : attrValue n s' with
      | none => rw [ha] at hm; cases hm
      | some vr =>
        obtain ⟨v', r'⟩ := vr
        rw [ha] at hm
        simp at hm
        obtain ⟨rfl, rfl⟩ := hm
        obtain ⟨p, h1, h2, h3, h4⟩ := attrValue_shape n s' v' r' ha
        refine ⟨k ++ p, by rw [hk, h1]; simp, by simp [hq, h2], by simp; omega, ?_⟩
        intro he
        have hl1 : k.length = 1 := by
          have := congrArg List.length he
          simp at this; omega
        obtain ⟨x, rfl⟩ := List.length_eq_one_iff.1 hl1
        simp at he
        obtain ⟨rfl, rfl⟩ := he
        intro y hy
        rcases List.mem_cons.1 hy with rfl | hy
        · exact hch rfl y (by simp)
        · exact h4 rfl y hy
    unfold attrValue at h
    split at h
    · rename_i hc
      cases h
      exact ⟨[], by simp [hc], by simp, by simp, fun _ => by intro c hc; simp at hc⟩
    rename_i hc1
    split at h
    · cases h
    rename_i hc2
    split at h
    · rename_i hc3
      split at h
      · cases h
      rename_i name s' hus
      split at h
      · cases h
      rename_i ch hent
      have hs := untilSemi_some hus
      refine step s' ch ('&' :: (name ++ [';'])) (by rw [hc3, hs]; simp) ?_ (by simp) ?_ h
      · have := entity_noQuote hent
        simp [this]
      · intro he; simp at he
    rename_i hc3
    split at h
    · rename_i hc4
      split at h
      · rename_i s'
        exact step s' ' ' [c, '\n'] rfl (by simp [hc4]) (by simp) (by simp) h
      · exact step s ' ' [c] rfl (by simp [hc4]) (by simp) (by
          intro he; rw [hc4] at he; simp at he) h
    rename_i hc4
    split at h
    · rename_i hc5
      refine step s ' ' [c] rfl ?_ (by simp) ?_ h
      · rcases hc5 with rfl | rfl <;> simp
      · rcases hc5 with rfl | rfl <;> simp
    rename_i hc5
    split at h
    · rename_i hx
      refine step s c [c] rfl (by simpa using fun h => hc1 h.symm) (by simp) ?_ h
      intro _ y hy
      obtain rfl : y = c := by simpa using hy
      refine ⟨hc1, hc2, hc3, ?_⟩
      have e1 : y.toNat ≠ 9 := fun h => hc5 (Or.inr (by
        rw [← Char.ofNat_toNat y, h]))
      have e2 : y.toNat ≠ 10 := fun h => hc5 (Or.inl (by
        rw [← Char.ofNat_toNat y, h]))
      have e3 : y.toNat ≠ 13 := fun h => hc4 (by
        rw [← Char.ofNat_toNat y, h])
      simp only [xmlChar, Bool.or_eq_true, beq_iff_eq, Bool.and_eq_true, decide_eq_true_eq] at hx
      omega
    · cases h

theorem attrValue_only {n : Nat} {v rest r : Str}
    (h : attrValue n (v ++ '"' :: rest) = some (v, r)) : r = rest ∧ XmlClean v := by
  obtain ⟨p, h1, h2, h3, h4⟩ := attrValue_shape n _ v r h
  have hp : p = v := by
    obtain ⟨t, ht⟩ : ∃ t, p = v ++ t := by
      have := congrArg (List.take v.length) h1
      rw [List.take_left, List.take_append_of_le_length h3] at this
      exact ⟨p.drop v.length, by conv_lhs => rw [← List.take_append_drop v.length p, ← this]⟩
    subst ht
    rw [List.append_assoc] at h1
    have h1 := List.append_cancel_left h1
    cases t with
    | nil => simp
    | cons x t =>
      simp at h1
      exact absurd (by rw [h1.1]; simp) h2
  subst hp
  have := List.append_cancel_left h1
  simp at this
  exact ⟨this.symm, h4 rfl⟩

theorem attrValue_iff (v rest : Str) :
    attrValue ((v ++ '"' :: rest).length + 1) (v ++ '"' :: rest) = some (v, rest) ↔ XmlClean v := by
  constructor
  · intro h; exact (attrValue_only h).2
  · intro h; exact attrValue_clean h rest _ (by simp; omega)

theorem takeWhile_append_stop {a b : Str} (h : '/' ∉ a) :
    (a ++ '/' :: b).takeWhile (· ≠ '/') = a := by
  induction a with
  | nil => simp
  | cons c a ih =>
    have hc : c ≠ '/' := fun h' => h (by simp [h'])
    have := ih (fun h' => h (by simp [h']))
    simp only [List.cons_append, List.takeWhile_cons, this]
    simp [hc]

theorem lastSegment_append (a t : Str) (h : '/' ∉ t) : lastSegment (a ++ '/' :: t) = t := by
  unfold lastSegment
  have : (a ++ '/' :: t).reverse = t.reverse ++ '/' :: a.reverse := by simp
  rw [this, takeWhile_append_stop (by simpa using h)]
  simp

theorem lastSegment_noSlash (s : Str) : '/' ∉ lastSegment s := by
  unfold lastSegment
  intro h
  have h := List.mem_reverse.1 h
  have : ∀ l : Str, '/' ∉ l.takeWhile (· ≠ '/') := by
    intro l
    induction l with
    | nil => simp
    | cons c l ih =>
      simp only [List.takeWhile_cons]
      split
      · rename_i hc
        intro hm
        rcases List.mem_cons.1 hm with rfl | hm
        · simp at hc
        · exact ih hm
      · simp
  exact this _ h

theorem expect_append (lit s : Str) : expect lit (lit ++ s) = some s := by
  unfold expect
  rw [if_pos (by simp), List.drop_left]

theorem dumpXml_append (r : Relationship) (rest : Str) : r.dumpXml ++ rest =
    kwOpen ++ (r.id ++ '"' :: (kwType ++ ((relsNs ++ '/' :: r.type) ++ '"' ::
    (kwTarget ++ (r.target ++ '"' :: (kwClose ++ rest)))))) := by
  unfold Relationship.dumpXml
  simp only [List.append_assoc, List.cons_append]

theorem relsNs_clean : XmlClean (relsNs ++ ['/']) := by decide +kernel

theorem scanOne_dump (r : Relationship) (rest : Str) (h1 : XmlClean r.id) (h2 : XmlClean r.type)
    (h3 : '/' ∉ r.type) (h4 : XmlClean r.target) :
    scanOne (r.dumpXml ++ rest) = some (r, rest) := by
  have hns : XmlClean (relsNs ++ '/' :: r.type) := by
    intro c hc
    rcases List.mem_append.1 hc with hc | hc
    · exact relsNs_clean c (List.mem_append_left _ hc)
    · rcases List.mem_cons.1 hc with rfl | hc
      · decide
      · exact h2 c hc
  rw [dumpXml_append]
  unfold scanOne
  rw [expect_append]
  simp only [Option.bind_eq_bind, Option.bind_some]
  rw [attrValue_clean h1 _ _ (by simp only [List.length_append]; omega)]
  simp only [Option.bind_some, expect_append]
  rw [attrValue_clean hns _ _ (by
    rw [List.length_append (bs := '"' :: _)]; omega)]
  simp only [Option.bind_some, expect_append]
  rw [attrValue_clean h4 _ _ (by simp only [List.length_append]; omega)]
  simp only [Option.bind_some, expect_append, lastSegment_append _ _ h3]
  rfl

theorem attrValue_append {v : Str} (h : XmlClean v) (s : Str) :
    ∀ n, v.length ≤ n → attrValue n (v ++ s) =
      (attrValue (n - v.length) s).map fun x => (v ++ x.1, x.2) := by
  induction v with
  | nil => intro n _; simp
  | cons c v ih =>
    intro n hn
    cases n with
    | zero => simp at hn
    | succ n =>
      obtain ⟨h1, h2, h3, h4, h5, h6⟩ := h c (by simp)
      have := ih (fun c hc => h c (by simp [hc])) n (by simp at hn; omega)
      have hr : c ≠ '\r' := by rintro rfl; simp at h4
      have hn' : c ≠ '\n' := by rintro rfl; simp at h4
      have ht : c ≠ '\t' := by rintro rfl; simp at h4
      simp only [List.cons_append, attrValue, h1, h2, h3, hr, hn', ht, if_false, false_or, this]
      have hx : xmlChar c = true := by simp [xmlChar, h4, h5, h6]
      simp [hx, Function.comp_def]

theorem attrValue_length {n : Nat} {v w rest r : Str}
    (h : attrValue n (v ++ '"' :: rest) = some (w, r)) : w.length ≤ v.length := by
  obtain ⟨p, h1, h2, h3, h4⟩ := attrValue_shape n _ w r h
  by_contra hlt
  have hlt : v.length < p.length := by omega
  apply h2
  have : (v ++ '"' :: rest)[v.length]? = some '"' := by simp
  rw [h1, List.getElem?_append_left hlt] at this
  exact List.mem_of_getElem? this

theorem lastSegment_length {a t : Str} (h : '/' ∈ t) :
    (lastSegment (a ++ '/' :: t)).length < t.length := by
  obtain ⟨x, y, rfl, hy⟩ : ∃ x y, t = x ++ '/' :: y ∧ '/' ∉ y := by
    clear a
    induction t with
    | nil => simp at h
    | cons c t ih =>
      by_cases ht : '/' ∈ t
      · obtain ⟨x, y, rfl, hy⟩ := ih ht
        exact ⟨c :: x, y, rfl, hy⟩
      · rcases List.mem_cons.1 h with rfl | h
        · exact ⟨[], t, rfl, ht⟩
        · exact absurd h ht
  have : a ++ '/' :: (x ++ '/' :: y) = (a ++ '/' :: x) ++ '/' :: y := by simp
  rw [this, lastSegment_append _ _ hy]
  simp; omega

theorem expect_some {lit s t : Str} (h : expect lit s = some t) : s = lit ++ t := by
  unfold expect at h
  split at h
  · rename_i hp
    cases h
    obtain ⟨u, rfl⟩ := List.isPrefixOf_iff_prefix.1 hp
    simp
  · cases h

theorem scanOne_only_if (r : Relationship) (rest : Str)
    (h : scanOne (r.dumpXml ++ rest) = some (r, rest)) :
    XmlClean r.id ∧ XmlClean r.type ∧ '/' ∉ r.type ∧ XmlClean r.target := by
  rw [dumpXml_append] at h
  unfold scanOne at h
  rw [expect_append] at h
  simp only [Option.bind_eq_bind, Option.bind_some] at h
  rw [Option.bind_eq_some_iff] at h
  obtain ⟨⟨i, s1⟩, ha, h⟩ := h
  simp only [] at h
  rw [Option.bind_eq_some_iff] at h
  obtain ⟨s2, hb, h⟩ := h
  rw [Option.bind_eq_some_iff] at h
  obtain ⟨⟨t, s3⟩, hc, h⟩ := h
  simp only [] at h
  rw [Option.bind_eq_some_iff] at h
  obtain ⟨s4, hd, h⟩ := h
  rw [Option.bind_eq_some_iff] at h
  obtain ⟨⟨g, s5⟩, he, h⟩ := h
  simp only [] at h
  rw [Option.bind_eq_some_iff] at h
  obtain ⟨s6, hf, h⟩ := h
  simp only [pure, Option.some.injEq, Prod.mk.injEq] at h
  obtain ⟨hr, rfl⟩ := h
  obtain ⟨rfl, hty, rfl⟩ : i = r.id ∧ lastSegment t = r.type ∧ g = r.target := by
    rw [← hr]; exact ⟨rfl, rfl, rfl⟩
  obtain ⟨rfl, hid⟩ := attrValue_only ha
  rw [expect_append] at hb
  cases hb
  have hslash : '/' ∉ r.type := by rw [← hty]; exact lastSegment_noSlash t
  have e : (relsNs ++ '/' :: r.type) ++ '"' :: (kwTarget ++ (r.target ++ '"' :: (kwClose ++ s6))) =
      (relsNs ++ ['/']) ++ (r.type ++ '"' :: (kwTarget ++ (r.target ++ '"' :: (kwClose ++ s6)))) := by
    simp only [List.append_assoc, List.cons_append, List.nil_append]
  rw [e, attrValue_append relsNs_clean _ _ (by
    rw [List.length_append (as := relsNs ++ ['/'])]; omega)] at hc
  generalize hn : ((relsNs ++ ['/'] ++ (r.type ++ '"' :: (kwTarget ++ (r.target ++ '"' ::
    (kwClose ++ s6))))).length + 1 - (relsNs ++ ['/']).length) = n at hc
  cases hv : attrValue n (r.type ++ '"' :: (kwTarget ++ (r.target ++ '"' :: (kwClose ++ s6)))) with
  | none => rw [hv] at hc; cases hc
  | some x =>
    obtain ⟨t', s3'⟩ := x
    rw [hv] at hc
    simp only [Option.map_some, Option.some.injEq, Prod.mk.injEq] at hc
    obtain ⟨rfl, rfl⟩ := hc
    have hty' : lastSegment (relsNs ++ '/' :: t') = r.type := by
      rw [← hty, List.append_assoc]; rfl
    have ht' : '/' ∉ t' := by
      intro hm
      have h1 := lastSegment_length (a := relsNs) hm
      rw [hty'] at h1
      have h2 := attrValue_length hv
      omega
    rw [lastSegment_append _ _ ht'] at hty'
    subst hty'
    obtain ⟨rfl, htc⟩ := attrValue_only hv
    rw [expect_append] at hd
    cases hd
    exact ⟨hid, htc, hslash, (attrValue_only he).2⟩

theorem scanMany_dump (rs : List Relationship)
    (h : ∀ r ∈ rs, XmlClean r.id ∧ XmlClean r.type ∧ '/' ∉ r.type ∧ XmlClean r.target) :
    ∀ n, rs.length < n →
      scanMany n (rs.flatMap Relationship.dumpXml ++ kwEnd) = some rs := by
  induction rs with
  | nil =>
    intro n hn
    cases n with
    | zero => simp at hn
    | succ n => simp [scanMany]
  | cons r rs ih =>
    intro n hn
    cases n with
    | zero => simp at hn
    | succ n =>
      obtain ⟨h1, h2, h3, h4⟩ := h r (by simp)
      rw [scanMany]
      have e : (r :: rs).flatMap Relationship.dumpXml ++ kwEnd =
          r.dumpXml ++ (rs.flatMap Relationship.dumpXml ++ kwEnd) := by simp
      rw [e, if_neg, scanOne_dump r _ h1 h2 h3 h4]
      · simp only [Option.bind_eq_bind, Option.bind_some]
        rw [ih (fun r hr => h r (by simp [hr])) n (by simp at hn; omega)]
        rfl
      · intro he
        rw [dumpXml_append] at he
        have h1 : kwOpen = '<' :: 'R' :: kwOpen.drop 2 := by decide +kernel
        have h2 : kwEnd = '<' :: '/' :: kwEnd.drop 2 := by decide +kernel
        rw [h1, h2] at he
        simp only [List.cons_append, List.cons.injEq, true_and] at he
        exact absurd he.1 (by decide)

theorem flatMap_dump_length (rs : List Relationship) :
    rs.length ≤ (rs.flatMap Relationship.dumpXml).length := by
  induction rs with
  | nil => simp
  | cons r rs ih =>
    simp only [List.flatMap_cons, List.length_append, List.length_cons]
    have : 1 ≤ r.dumpXml.length := by
      unfold Relationship.dumpXml
      simp only [List.length_append, List.length_cons]; omega
    omega

theorem scanXml_document (rs : List Relationship)
    (h : ∀ r ∈ rs, XmlClean r.id ∧ XmlClean r.type ∧ '/' ∉ r.type ∧ XmlClean r.target) :
    scanXml (relsDocument rs) = some rs := by
  unfold scanXml relsDocument
  rw [expect_append]
  simp only [Option.bind_eq_bind, Option.bind_some]
  exact scanMany_dump rs h _ (by
    have := flatMap_dump_length rs
    simp only [List.length_append]; omega)

/-! ## Column letters -/

theorem colIdx_colName (n : Nat) (digits : Bytes) (h : IsDigits digits) :
    colIdx (colName n ++ digits) = n := by
  let f := fun (st : Int × Nat) (x : UInt8) =>
      if x.toNat > 64 then (st.1 + ((x.toNat : Int) - 64) * (26 ^ st.2), st.2 + 1) else st
  have hskip : ∀ (d : Bytes) (st : Int × Nat), IsDigits d → d.foldl f st = st := by
    intro d
    induction d with
    | nil => intros; rfl
    | cons x d ih =>
      intro st hd
      have hx := hd x (by simp)
      simp only [List.foldl_cons]
      have : f st x = st := by simp only [f]; rw [if_neg (by omega)]
      rw [this]
      exact ih st (fun y hy => hd y (by simp [hy]))
  have hmain : ∀ (m : Nat) (a : Int) (i : Nat),
      ((colName m).reverse.foldl f (a, i)).1 = a + ((m : Int) + 1) * 26 ^ i := by
    intro m
    induction m using Nat.strongRecOn with
    | _ m ih =>
      intro a i
      rw [colName]
      split
      · rename_i hm
        have e : (UInt8.ofNat (65 + m)).toNat = 65 + m := toNat_ofNat_lt (by omega)
        simp only [List.reverse_cons, List.reverse_nil, List.nil_append, List.foldl_cons,
          List.foldl_nil, f, e]
        rw [if_pos (by omega)]
        push_cast; ring
      · rename_i hm
        have e : (UInt8.ofNat (65 + m % 26)).toNat = 65 + m % 26 := toNat_ofNat_lt (by omega)
        simp only [List.reverse_append, List.reverse_cons, List.reverse_nil, List.nil_append,
          List.cons_append, List.foldl_cons]
        have e2 : f (a, i) (UInt8.ofNat (65 + m % 26)) =
            (a + ((m % 26 : Nat) + 1) * 26 ^ i, i + 1) := by
          simp only [f, e]
          rw [if_pos (by omega)]
          push_cast
          congr 1
          ring
        rw [e2, ih (m / 26 - 1) (by omega)]
        have h1 : ((m / 26 - 1 : Nat) : Int) + 1 = ((m / 26 : Nat) : Int) := by omega
        have h2 : (m : Int) = 26 * ((m / 26 : Nat) : Int) + ((m % 26 : Nat) : Int) := by omega
        rw [h1, pow_succ]
        conv_rhs => rw [h2]
        ring
  have : colIdx (colName n ++ digits) =
      ((colName n).reverse.foldl f (digits.reverse.foldl f (-1, 0))).1 := by
    unfold colIdx
    rw [List.reverse_append, List.foldl_append]
  rw [this, hskip digits.reverse _ (fun x hx => h x (List.mem_reverse.1 hx)), hmain]
  simp

end Rxls
