import Verif.Lemmas.ConcatSpec
import Verif.Lemmas.Series
import Verif.Spec.DemoEnv

/-! # Property C91: the recorded size of a chunk is the number of its cells -/

namespace Rxls

theorem mapM_length_eq {α β : Type} (f : α → Py β) : ∀ (l : List α) (r : List β), l.mapM f = .ok r → r.length = l.length
  | [], r, h => by
    have : r = [] := by simpa [pure, Except.pure] using h.symm
    simp [this]
  | a :: l, r, h => by
    rw [List.mapM_cons] at h
    cases h1 : f a with
    | error e => rw [h1] at h; cases h
    | ok b =>
      rw [h1] at h
      cases h2 : l.mapM f with
      | error e => rw [h2] at h; cases h
      | ok bs =>
        rw [h2] at h
        have : r = b :: bs := by cases h; rfl
        rw [this, List.length_cons, List.length_cons, mapM_length_eq f l bs h2]

/-- C91.  What the predicates of a chunk say. -/
theorem C91_predicates {c : Chunk} {k : Cls} {vs : List (Option Val)} (h : Denotes c k vs) :
    (c.isEmpty = true ↔ vs = []) ∧ (c.isNull = true ↔ k = .null) ∧
      (c.isNumeric = true ↔ k = .nums ∨ k = .temp) ∧ (c.isTemporal = true ↔ k = .temp) := by
  cases h with
  | null n sz sr => simp [Chunk.isEmpty, Chunk.isNull, Chunk.isNumeric, Chunk.isTemporal, Data.length, hasBit]
  | str l sz sr =>
    refine ⟨by simp [Chunk.isEmpty, Data.length], ?_, ?_, ?_⟩ <;> simp [Chunk.isNull, Chunk.isNumeric, Chunk.isTemporal] <;> decide
  | shared l sz sr vs h =>
    have := congrArg List.length h
    simp only [List.length_map] at this
    refine ⟨by simp [Chunk.isEmpty, Data.length, ← List.length_eq_zero_iff, this], ?_, ?_, ?_⟩ <;>
      simp [Chunk.isNull, Chunk.isNumeric, Chunk.isTemporal] <;> decide
  | num l t sz sr h =>
    refine ⟨by simp [Chunk.isEmpty, Data.length], ?_, ?_, ?_⟩ <;> rcases h with rfl | rfl <;>
      simp [Chunk.isNull, Chunk.isNumeric, Chunk.isTemporal] <;> decide
  | rk l sz sr =>
    refine ⟨by simp [Chunk.isEmpty, Data.length], ?_, ?_, ?_⟩ <;> simp [Chunk.isNull, Chunk.isNumeric, Chunk.isTemporal] <;> decide
  | serial l sz sr =>
    refine ⟨by simp [Chunk.isEmpty, Data.length], ?_, ?_, ?_⟩ <;> simp [Chunk.isNull, Chunk.isNumeric, Chunk.isTemporal] <;> decide
  | rkSerial l sz sr =>
    refine ⟨by simp [Chunk.isEmpty, Data.length], ?_, ?_, ?_⟩ <;> simp [Chunk.isNull, Chunk.isNumeric, Chunk.isTemporal] <;> decide
  | ms l t sz sr h =>
    refine ⟨by simp [Chunk.isEmpty, Data.length], ?_, ?_, ?_⟩ <;> rcases h with rfl | rfl <;>
      simp [Chunk.isNull, Chunk.isNumeric, Chunk.isTemporal] <;> decide

theorem fromiterU32_length (env : Env) : ∀ (d : List Raw) (l : List Nat), fromiterU32 env d = .ok l → l.length = d.length
  | [], l, h => by cases h; rfl
  | .bytes b :: d, l, h => by cases h
  | .text s :: d, l, h => by
    simp only [fromiterU32] at h
    split at h
    · cases h
    · split at h
      · cases h
      · split at h
        · rename_i r hr
          cases h
          simp [fromiterU32_length env d r hr]
        · cases h

theorem fromiterF8_length (env : Env) : ∀ (d : List Raw) (l : List F64), fromiterF8 env d = .ok l → l.length = d.length
  | [], l, h => by cases h; rfl
  | .bytes b :: d, l, h => by cases h
  | .text s :: d, l, h => by
    simp only [fromiterF8] at h
    split at h
    · cases h
    · split at h
      · rename_i r hr
        cases h
        simp [fromiterF8_length env d r hr]
      · cases h

theorem textArray_length : ∀ (d : List Raw) (l : List (Option Str)), textArray d = .ok l → l.length = d.length
  | [], l, h => by cases h; rfl
  | .bytes b :: d, l, h => by cases h
  | .text s :: d, l, h => by
    simp only [textArray] at h
    split at h
    · rename_i r hr
      cases h
      simp [textArray_length d r hr]
    · cases h

theorem piecesOf_count (w : Nat) : ∀ n b, (piecesOf w n b).length = n
  | 0, _ => rfl
  | n + 1, b => by simp [piecesOf, piecesOf_count w n]

theorem xlsxStrings_size {env : Env} {d : List Raw} {s : Bool} {sh : List (Option Str)} {c : Chunk}
    (h : Chunk.xlsxStrings env d s sh = .ok c) : c.size = d.length ∧ c.data.length = d.length := by
  unfold Chunk.xlsxStrings at h
  split at h <;> split at h
  · rename_i l hl; cases h; exact ⟨rfl, fromiterU32_length env d l hl⟩
  · cases h
  · rename_i l hl; cases h; exact ⟨rfl, textArray_length d l hl⟩
  · cases h

/-- C91.  A chunk made from a run of XLSX cells has their number as its size, and as many cells. -/
theorem C91_xlsx {env : Env} {sh : List (Option Str)} {xdt : Nat} {vals : List Raw} {c : Chunk}
    (h : makeChunk env false sh xdt vals = .ok c) : c.size = vals.length ∧ c.data.length = vals.length := by
  unfold makeChunk at h
  split at h
  · exact xlsxStrings_size h
  · simp only [Bool.false_eq_true, if_false, Chunk.xlsxNumeric] at h
    split at h
    · rename_i l hl; cases h; exact ⟨rfl, fromiterF8_length env vals l hl⟩
    · exact xlsxStrings_size h
    · cases h

/-- The bytes of one XLSB number of this type. -/
def numberWidth (xdt : Nat) : Nat := if hasBit xdt REPR_RKNUMBER then 4 else if hasBit xdt REPR_BOOLEAN then 1 else 8

/-- C91, exactly: a chunk made from a run of XLSB cells has their number as its size; it has as many cells unless they
are numbers whose bytes do not add up. -/
theorem C91_xlsb_exact {env : Env} {sh : List (Option Str)} {xdt : Nat} {vals : List Raw} {c : Chunk}
    (h : makeChunk env true sh xdt vals = .ok c) : c.size = vals.length ∧
      (c.size = c.data.length ↔ hasBit xdt TYPE_STRING = true ∨
        ∃ b, joinRaw vals = .ok b ∧ b.length = numberWidth xdt * vals.length) := by
  have key : ∀ (w : Nat) (l : List Nat), 0 < w → dataToArray w vals = .ok l →
      (vals.length = l.length ↔ ∃ b, joinRaw vals = .ok b ∧ b.length = w * vals.length) := by
    intro w l hw hl
    unfold dataToArray at hl
    split at hl
    · cases hl
    rename_i b hb
    split at hl
    · cases hl
    rename_i hm
    cases hl
    rw [List.length_map, piecesOf_count]
    constructor
    · intro e
      exact ⟨b, hb, by rw [e]; exact (Nat.mul_div_cancel' (Nat.dvd_of_mod_eq_zero (by omega))).symm⟩
    · rintro ⟨b', e, e2⟩
      rw [hb] at e
      cases e
      rw [e2, Nat.mul_div_cancel_left _ hw]
  unfold makeChunk at h
  by_cases hs : hasBit xdt TYPE_STRING = true
  · rw [if_pos hs] at h
    simp only [if_true, Chunk.xlsbStrings] at h
    split at h <;> split at h
    · rename_i l hl
      cases h
      refine ⟨rfl, ⟨fun _ => .inl hs, fun _ => ?_⟩⟩
      unfold dataToArrow at hl
      split at hl
      · cases hl
      split at hl
      · cases hl
      cases hl
      simp [Data.length, piecesOf_count]
    · cases h
    · rename_i l hl
      cases h
      exact ⟨rfl, ⟨fun _ => .inl hs, fun _ => (textArray_length vals l hl).symm⟩⟩
    · cases h
  · rw [if_neg hs] at h
    simp only [if_true, Chunk.xlsbNumeric] at h
    rw [or_iff_right hs]
    unfold numberWidth
    split at h
    · rename_i hk
      split at h
      · rename_i l hl
        cases h
        refine ⟨rfl, ?_⟩
        simp only [Data.length, List.length_map, hk, if_true]
        exact key 4 l (by decide) hl
      · cases h
    · rename_i hk
      split at h
      · rename_i hb
        split at h
        · rename_i l hl
          cases h
          refine ⟨rfl, ?_⟩
          simp only [Data.length, List.length_map, hk, hb, if_true, if_false, Bool.false_eq_true]
          exact key 1 l (by decide) hl
        · cases h
      · rename_i hb
        split at h
        · rename_i l hl
          cases h
          refine ⟨rfl, ?_⟩
          simp only [Data.length, List.length_map, hk, hb, if_false, Bool.false_eq_true]
          exact key 8 l (by decide) hl
        · cases h

/-- Two RK numbers of two bytes make one cell: a chunk of two rows with one number. -/
example : makeChunk demoEnv true [] (TYPE_NUMERIC ||| REPR_RKNUMBER) [.bytes [1, 2], .bytes [3, 4]] =
      .ok ⟨.u32 [0x04030201], TYPE_NUMERIC ||| REPR_RKNUMBER, 2, []⟩ ∧
    makeChunk demoEnv true [] (TYPE_NUMERIC ||| REPR_RKNUMBER) [.bytes [1, 2, 3, 4], .bytes [5, 6, 7, 8]] =
      .ok ⟨.u32 [0x04030201, 0x08070605], TYPE_NUMERIC ||| REPR_RKNUMBER, 2, []⟩ := by
  decide +kernel

/-- C91.  The size of a null chunk, and of what `take` returns, is the number of cells. -/
theorem C91_take {c d : Chunk} {i : TakeIdx} (h : c.take i = .ok d) : d.size = d.data.length := by
  have key : ∀ {α : Type} (r : Py (List α)) (f : List α → Data) (n : ∀ l, (f l).length = l.length),
      (do let d ← r; .ok ⟨f d, c.typ, d.length, c.sref⟩ : Py Chunk) = .ok d → d.size = d.data.length := by
    intro α r f n hd
    cases r with
    | error e => cases hd
    | ok l => cases hd; exact (n l).symm
  unfold Chunk.take at h
  split at h
  · split at h
    · exact key _ Data.strs (fun _ => rfl) h
    · exact key _ Data.idx (fun _ => rfl) h
    · cases h
  · split at h
    · cases i with
      | «at» i => cases h; rfl
      | slice s => cases h; rfl
      | mask m =>
        simp only at h
        split at h
        · cases h
        · cases h; rfl
    · split at h
      · exact key _ Data.u32 (fun _ => rfl) h
      · exact key _ Data.f8 (fun _ => rfl) h
      · exact key _ Data.i8 (fun _ => rfl) h
      · cases h

theorem C91_nulls (n : Nat) : (Chunk.nulls n).size = n ∧ (Chunk.nulls n).data.length = n := ⟨rfl, rfl⟩

/-- C91.  `prepare` keeps the size and the number of cells. -/
theorem C91_prepare {c d : Chunk} (h : c.prepare = .ok d) : d.size = c.size ∧ d.data.length = c.data.length := by
  unfold Chunk.prepare at h
  split at h
  · cases h; exact ⟨rfl, rfl⟩
  split at h
  · split at h
    · rename_i l hd
      cases ht : takeShared c.sref l with
      | error e => rw [ht] at h; cases h
      | ok s =>
        rw [ht] at h
        cases h
        refine ⟨rfl, ?_⟩
        rw [hd]
        exact mapM_length_eq _ _ _ ht
    · cases h
  · by_cases h1 : hasBit c.typ REPR_RKNUMBER = true <;> by_cases h2 : hasBit c.typ REPR_TEMPORAL = true <;>
      cases hd : c.data <;> simp only [h1, h2, hd, if_true, if_false, bind, Except.bind, Bool.false_eq_true] at h <;>
      first
      | (cases h; exact ⟨rfl, by simp [Data.length]⟩)
      | cases h

theorem castArr_count {env : Env} {dst : DType} {a b : Arr} (h : castArr env dst a = .ok b) :
    b.vals.length = a.vals.length := by
  unfold castArr at h
  split at h
  · cases h; rfl
  · cases hv : castVals env dst a.vals with
    | error e => rw [hv] at h; cases h
    | ok vs =>
      rw [hv] at h
      cases h
      exact mapM_length_eq _ _ _ hv

theorem wrap_count {c : Chunk} {a : Arr} (h : c.wrap = .ok a) : a.vals.length = c.data.length := by
  unfold Chunk.wrap at h
  split at h
  · split at h
    · rename_i hd; cases h; simp [hd, Data.length]
    · cases h
  · split at h
    · split at h
      · rename_i hd; cases h; simp [hd, Data.length]
      · cases h
    · split at h
      · rename_i hd; cases h; simp [hd, Data.length]
      · cases h

/-- C91 fails for the chunks that conversions make: their size is 0, whatever the number of cells. -/
theorem C91_converted_numeric {env : Env} {c c' d : Chunk} (h : c.asNumeric env = (c', .ok (some d))) :
    d.size = 0 ∧ d.data.length = c.data.length := by
  unfold Chunk.asNumeric at h
  split at h
  · simp at h
  · rename_i hc
    simp only [Bool.or_eq_true, decide_eq_true_eq, not_or] at hc
    unfold Chunk.arrow at h
    rw [if_neg hc.1] at h
    cases hp : c.prepare with
    | error e => rw [hp] at h; simp at h
    | ok p =>
      rw [hp] at h
      simp only at h
      cases hw : p.wrap with
      | error e => rw [hw] at h; simp [bind, Except.bind] at h
      | ok a =>
        rw [hw] at h
        cases ha : castArr env .f8 a with
        | error e => simp [bind, Except.bind, ha] at h
        | ok a' =>
          simp only [bind, Except.bind, ha, Prod.mk.injEq, Except.ok.injEq, Option.some.injEq] at h
          rw [← h.2]
          refine ⟨rfl, ?_⟩
          refine (List.length_map _).trans ?_
          rw [castArr_count ha, wrap_count hw, (C91_prepare hp).2]

theorem C91_converted_temporal {env : Env} {fm : List Str} {c d : Chunk} (h : c.asTemporal env fm = .ok (some d)) :
    d.size = 0 ∧ d.data.length = c.data.length := by
  unfold Chunk.asTemporal at h
  split at h
  · split at h
    · cases h
    · split at h <;> cases h <;> exact ⟨rfl, rfl⟩
  · split at h
    · rename_i l hd
      cases hm : mfStrptime env.strptime env.formats l fm true with
      | error e => rw [hm] at h; cases h
      | ok r =>
        rw [hm] at h
        cases h
        rw [hd]
        exact ⟨rfl, mfStrptime_length hm⟩
    · cases h
    · cases h

/-- Finding: a converted chunk of one cell has size 0, and the next window over the list skips it. -/
theorem C91_converted_is_skipped :
    ((⟨.f8 [.fin 1], 0x28, 1, []⟩ : Chunk).asTemporal demoEnv []) = .ok (some ⟨.f8 [.fin 1], 0x24, 0, []⟩) ∧
    takeOver [⟨.f8 [.fin 1], 0x24, 0, []⟩, ⟨.f8 [.fin 2], 0x24, 1, []⟩] 0 2 none =
      .ok [(⟨.f8 [.fin 2], 0x24, 1, []⟩, some 1), (Chunk.nulls 1, none)] ∧
    takeOver [⟨.f8 [.fin 1], 0x24, 1, []⟩, ⟨.f8 [.fin 2], 0x24, 1, []⟩] 0 2 none =
      .ok [(⟨.f8 [.fin 1], 0x24, 1, []⟩, some 0), (⟨.f8 [.fin 2], 0x24, 1, []⟩, some 1)] := by
  decide +kernel

end Rxls
