import Verif.Lemmas.History
import Verif.Lemmas.SharedDates
import Verif.Props.Chunk

/-!
# Reading columns below their last row

A window of no rows (or, below the last row, of a negative number of them) is a window all the same: `take_over` gives
nothing, and `concatenate` raises `ValueError`; or, if a column reaches past the start of the window, it gives rows of
the run that is there.
-/

namespace Rxls

theorem takeLoop_low {length : Int} (hl : length ≤ 0) : ∀ (cs : List Chunk) (i : Nat) (offset : Int) (col), Column cs col →
    0 < offset → ∃ r n, takeLoop length cs i offset 0 = .ok (r, n) ∧ 0 ≤ n ∧
      (r = [] ∨ ∃ t, r = [t] ∧ ∃ k vs, t.1.Holds k vs) ∧ (col.length ≤ offset → r = [])
  | [], i, offset, col, h, ho => ⟨[], 0, rfl, by omega, .inl rfl, fun _ => rfl⟩
  | c :: cs, i, offset, col, h, ho => by
    cases h with
    | @cons _ _ k vs rest h1 h2 =>
    unfold takeLoop
    have hsz := h1.2
    by_cases hc : (c.size : Int) ≤ offset
    · rw [if_pos ⟨ho, hc⟩]
      by_cases hz : 0 < offset - c.size
      · obtain ⟨r, n, e, hn, hr, hs⟩ := takeLoop_low hl cs (i + 1) (offset - c.size) rest h2 hz
        refine ⟨r, n, e, hn, hr, fun hlen => hs ?_⟩
        rw [List.length_append] at hlen
        omega
      · have h0 : offset - c.size = 0 := by omega
        rw [h0]
        cases cs with
        | nil =>
          exact ⟨[], 0, rfl, by omega, .inl rfl, fun _ => rfl⟩
        | cons c' cs =>
          cases h2 with
          | @cons _ _ k' vs' rest' h3 h4 =>
          obtain ⟨t1, e1, g1⟩ := cutTop_spec c' k' vs' h3 (i + 1) 0
          unfold takeLoop
          rw [if_neg (by omega), e1]
          simp only
          obtain ⟨t2, e2, k2, vs2, g2, gs⟩ : ∃ t2, cutBottom t1 length (0 + t1.1.size) = .ok t2 ∧
              ∃ k vs, t2.1.Holds k vs ∧ (t1.1.size = 0 → t2.1.size = 0) := by
            unfold cutBottom
            by_cases hb : length ≠ 0 ∧ length < 0 + (t1.1.size : Int)
            · rw [if_pos hb]
              obtain ⟨c2, e, hh, _⟩ := take_slice t1.1 _ _ g1 ⟨none, some (t1.1.size + length - (0 + t1.1.size)), none⟩
                (by simp) (fun _ => ⟨by intro i hi; injection hi with hi; omega, by simp⟩)
              rw [e]
              refine ⟨_, rfl, _, _, hh, fun hz => ?_⟩
              simp only
              have : (vs'.drop (0 : Int).toNat) = [] := by
                have := g1.2; rw [hz] at this; exact List.length_eq_zero_iff.mp this.symm
              rw [this] at hh
              have := hh.2
              rw [this]
              have := g1.2
              simp_all [listSlice]
            · rw [if_neg hb]
              exact ⟨_, rfl, _, _, g1, id⟩
          rw [e2]
          simp only
          rw [if_pos (by omega)]
          refine ⟨_, _, rfl, by omega, ?_, fun hlen => ?_⟩
          · unfold keepTaken
            split
            · exact .inr ⟨_, rfl, _, _, g2⟩
            · exact .inl rfl
          · unfold keepTaken
            have : t1.1.size = 0 := by
              rw [g1.2]
              simp only [List.length_append] at hlen
              simp only [List.length_drop]
              omega
            rw [if_neg (by simp [gs this])]
    · rw [if_neg (by omega)]
      obtain ⟨t1, e1, g1⟩ := cutTop_spec c k vs h1 i offset
      rw [e1]
      simp only
      obtain ⟨t2, e2, k2, vs2, g2⟩ : ∃ t2, cutBottom t1 length (0 + t1.1.size) = .ok t2 ∧ ∃ k vs, t2.1.Holds k vs := by
        unfold cutBottom
        by_cases hb : length ≠ 0 ∧ length < 0 + (t1.1.size : Int)
        · rw [if_pos hb]
          obtain ⟨c2, e, hh, _⟩ := take_slice t1.1 _ _ g1 ⟨none, some (t1.1.size + length - (0 + t1.1.size)), none⟩
            (by simp) (fun _ => ⟨by intro i hi; injection hi with hi; omega, by simp⟩)
          rw [e]
          exact ⟨_, rfl, _, _, hh⟩
        · rw [if_neg hb]
          exact ⟨_, rfl, _, _, g1⟩
      rw [e2]
      simp only
      rw [if_pos (by omega)]
      refine ⟨_, _, rfl, by omega, ?_, fun hlen => ?_⟩
      · unfold keepTaken
        split
        · exact .inr ⟨_, rfl, _, _, g2⟩
        · exact .inl rfl
      · rw [List.length_append] at hlen
        omega

theorem concatenate_low (env : Env) (o : ConcatOpts) {cs : List Chunk} {col} (h : Column cs col) {offset length : Int}
    (ho : 0 < offset) (hl : length ≤ 0) :
    ((concatenate env o cs offset length none).2 = .error .valueError ∨
      ∃ a, (concatenate env o cs offset length none).2 = .ok a) ∧
    (col.length ≤ offset → (concatenate env o cs offset length none).2 = .error .valueError) := by
  obtain ⟨r, n, e, hn, hr, hs⟩ := takeLoop_low hl cs 0 offset col h ho
  have et : takeOver cs offset length none = .ok r := by
    unfold takeOver
    simp only [e]
    rw [if_neg (by omega), List.append_nil]
  have e0 : r = [] → (concatenate env o cs offset length none).2 = .error .valueError := by
    rintro rfl
    unfold concatenate
    rw [if_pos (.inl (by omega)), et]
    rfl
  refine ⟨?_, fun hlen => e0 (hs hlen)⟩
  rcases hr with rfl | ⟨t, rfl, k, vs, hv⟩
  · exact .inl (e0 rfl)
  · obtain ⟨a, ha, _⟩ := C30_type_partial env o [t.1] [(k, vs)] (.cons hv .nil) (by simp) (by
      rintro - ⟨r, hr, hk⟩ c hc
      simp only [List.mem_singleton] at hr hc
      subst hr hc
      simp only at hk
      subst hk
      intro l hd
      obtain ⟨c, x⟩ := t
      have := hv.1
      simp only at this hd
      cases this <;> simp at hd)
    refine .inr ⟨a, ?_⟩
    rw [← ha]
    unfold concatenate
    rw [if_pos (.inl (by omega)), et]
    simp

theorem Series.After.low {env : Env} {o : ConcatOpts} {C : HCol} {done : List Reading} {s : Series}
    (h : s.After env o C done) {offset length : Int} (ho : 0 < offset) (hl : length ≤ 0) :
    ((s.toArrow env offset length none).2 = .error .valueError ∨
      ∃ a, (s.toArrow env offset length none).2 = .ok a) ∧
    (C.rows.length ≤ offset → (s.toArrow env offset length none).2 = .error .valueError) := by
  obtain ⟨s1, hf, ht, hne, hz, hcur, hop⟩ := h.state
  have hl1 : (heldCells C.rows).length = C.rows.length := by simp [heldCells]
  have := concatenate_low env s1.opts ht.column ho hl
  rw [hl1] at this
  unfold Series.toArrow
  rw [hf]
  simp only [List.isEmpty_iff, hne, if_false]
  generalize hcc : concatenate env s1.opts s1.chunks offset length none = r at this ⊢
  obtain ⟨cs', r2⟩ := r
  obtain ⟨h1, h2⟩ := this
  refine ⟨?_, fun hlen => ?_⟩
  · rcases h1 with h1 | ⟨a, h1⟩
    · simp only at h1
      subst h1
      exact .inl rfl
    · simp only at h1
      subst h1
      exact .inr ⟨_, rfl⟩
  · have := h2 hlen
    simp only at this
    subst this
    rfl

end Rxls
