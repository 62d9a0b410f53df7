import Verif.Spec.Series
import Verif.Lemmas.Chunk
import Mathlib.Tactic

/-! # Columns under construction -/

namespace Rxls

theorem height_snoc (cs : List Cell) (c : Cell) : height (cs ++ [c]) = max (height cs) (c.row + 1) := by
  unfold height
  induction cs with
  | nil => simp
  | cons d cs ih =>
    simp only [List.cons_append, List.map_cons, List.foldr_cons, ih]
    rw [max_assoc]

theorem find_ge (cs : List Cell) (r : Nat) (h : height cs ≤ r) : (cs.find? fun c => decide (r ≤ c.row)) = none := by
  rw [List.find?_eq_none]
  intro c hc
  have : c.row + 1 ≤ height cs := by
    unfold height
    clear h
    induction cs with
    | nil => simp at hc
    | cons d cs ih =>
      simp only [List.map_cons, List.foldr_cons]
      rcases List.mem_cons.mp hc with rfl | hc
      · exact le_max_left _ _
      · exact le_trans (ih hc) (le_max_right _ _)
  simp only [decide_eq_true_eq]
  omega

theorem find_lt (cs : List Cell) (r : Nat) (h : r < height cs) : ∃ c, (cs.find? fun c => decide (r ≤ c.row)) = some c := by
  rw [← Option.isSome_iff_exists, List.find?_isSome]
  unfold height at h
  induction cs with
  | nil => simp at h
  | cons d cs ih =>
    simp only [List.map_cons, List.foldr_cons, lt_max_iff] at h
    rcases h with h | h
    · exact ⟨d, by simp, by simp; omega⟩
    · obtain ⟨c, h1, h2⟩ := ih h
      exact ⟨c, by simp [h1], h2⟩

theorem rawAt_old (cs : List Cell) (c : Cell) (r : Nat) (h : r < height cs) : rawAt (cs ++ [c]) r = rawAt cs r := by
  obtain ⟨d, hd⟩ := find_lt cs r h
  simp only [rawAt, List.find?_append, hd, Option.some_or]

theorem rawAt_new (cs : List Cell) (c : Cell) (r : Nat) (h : height cs ≤ r) (hr : r ≤ c.row) :
    rawAt (cs ++ [c]) r = if c.row = r then some (c.xdt, c.val) else none := by
  simp only [rawAt, List.find?_append, find_ge cs r h, Option.none_or]
  simp [hr]

theorem rawColumn_skip (cs : List Cell) (c : Cell) (h : c.row < height cs) : rawColumn (cs ++ [c]) = rawColumn cs := by
  unfold rawColumn
  rw [height_snoc, max_eq_left (by omega)]
  apply List.map_congr_left
  intro r hr
  exact rawAt_old cs c r (List.mem_range.mp hr)

theorem rawColumn_snoc (cs : List Cell) (c : Cell) (h : height cs ≤ c.row) :
    rawColumn (cs ++ [c]) = rawColumn cs ++ List.replicate (c.row - height cs) none ++ [some (c.xdt, c.val)] := by
  unfold rawColumn
  rw [height_snoc, max_eq_right (by omega)]
  rw [show c.row + 1 = height cs + ((c.row - height cs) + 1) by omega, List.range_add, List.map_append]
  rw [List.append_assoc]
  congr 1
  · apply List.map_congr_left
    intro r hr
    exact rawAt_old cs c r (List.mem_range.mp hr)
  · rw [List.range_succ, List.map_append, List.map_append, List.map_map]
    congr 1
    · have : List.replicate (c.row - height cs) (none : Option (Nat × Raw)) =
          (List.range (c.row - height cs)).map fun _ => none := by simp
      rw [this]
      apply List.map_congr_left
      intro r hr
      have := List.mem_range.mp hr
      simp only [Function.comp]
      rw [rawAt_new cs c _ (by omega) (by omega), if_neg (by omega)]
    · simp only [List.map_cons, List.map_nil]
      rw [rawAt_new cs c _ (by omega) (by omega), if_pos (by omega)]

/-! ## The invariant -/

/-- Tags of the stretches that are not chunks yet. -/
def Series.pending (s : Series) : List (Option Nat) :=
  (if s.chOff ≠ 0 then [none] else []) ++ (if s.cur ≠ [] then [some s.xdtr] else [])

structure Series.Inv (env : Env) (s : Series) (cs : List Cell) : Prop where
  gs : ∃ gs : List Stretch, List.Forall₂ (Stretch.Is env s.binary s.shared) gs s.chunks ∧
    gs.flatMap Stretch.rows ++ List.replicate s.chOff none ++ s.cur.map (fun v => some (s.xdtr, v)) = rawColumn cs ∧
    (gs.map Stretch.tag ++ s.pending).IsChain (· ≠ ·)
  eRow : s.eRow = (height cs : Int) - 1
  sRow : s.sRow = match cs.head? with | none => -1 | some c => (c.row : Int)
  cur : s.cur = [] → cs = []
  off : s.cur = [] → s.chOff = 0
  start : s.cur = [] → s.chunks = []

theorem pull_inv {env : Env} {s s' : Series} {cs : List Cell} (h : s.Inv env cs) (hc : s.cur ≠ [])
    (e : s.pull env = .ok s') :
    (∃ gs : List Stretch, List.Forall₂ (Stretch.Is env s.binary s.shared) gs s'.chunks ∧
      gs.flatMap Stretch.rows = rawColumn cs ∧ (gs.map Stretch.tag).IsChain (· ≠ ·) ∧
      (gs.map Stretch.tag).getLast? ≠ some none) ∧ s'.cur = [] ∧ s'.chOff = 0 ∧ s'.eRow = s.eRow ∧ s'.sRow = s.sRow ∧
      s'.binary = s.binary ∧ s'.shared = s.shared ∧ s'.opts = s.opts ∧ s'.xdtr = s.xdtr := by
  unfold Series.pull at e
  cases hm : makeChunk env s.binary s.shared s.xdtr s.cur with
  | error x => rw [hm] at e; simp at e
  | ok c =>
    rw [hm] at e
    injection e with e
    subst e
    refine ⟨?_, rfl, rfl, rfl, rfl, rfl, rfl, rfl, rfl⟩
    obtain ⟨gs, h1, h2, h3⟩ := h.gs
    by_cases h0 : s.chOff = 0
    · refine ⟨gs ++ [.run s.xdtr s.cur], ?_, ?_, by simpa [Series.pending, h0, hc, Stretch.tag] using h3,
        by simp [Stretch.tag]⟩
      · simp only [h0, ne_eq, not_true_eq_false, if_false, List.append_nil]
        exact List.rel_append h1 (.cons ⟨hc, hm⟩ .nil)
      · rw [← h2, h0]
        simp [Stretch.rows, List.flatMap_append]
    · refine ⟨gs ++ [.gap s.chOff, .run s.xdtr s.cur], ?_, ?_, by simpa [Series.pending, h0, hc, Stretch.tag] using h3,
        by simp [Stretch.tag]⟩
      · simp only [h0, ne_eq, not_false_eq_true, if_true, List.append_assoc, List.cons_append, List.nil_append]
        exact List.rel_append h1 (.cons ⟨by omega, rfl⟩ (.cons ⟨hc, hm⟩ .nil))
      · rw [← h2]
        simp [Stretch.rows, List.flatMap_append]

theorem flush_inv {env : Env} {s s' : Series} {cs : List Cell} (h : s.Inv env cs) (e : s.flush env = .ok s') :
    (∃ gs : List Stretch, List.Forall₂ (Stretch.Is env s.binary s.shared) gs s'.chunks ∧
      gs.flatMap Stretch.rows = rawColumn cs ∧ (gs.map Stretch.tag).IsChain (· ≠ ·) ∧
      (gs.map Stretch.tag).getLast? ≠ some none) ∧ s'.cur = [] ∧ s'.chOff = 0 ∧ s'.eRow = s.eRow ∧ s'.sRow = s.sRow ∧
      s'.binary = s.binary ∧ s'.shared = s.shared ∧ s'.opts = s.opts ∧ s'.xdtr = s.xdtr := by
  unfold Series.flush at e
  by_cases hc : s.cur = []
  · rw [if_pos (by simp [hc])] at e
    injection e with e
    subst e
    obtain ⟨gs, h1, h2, h3⟩ := h.gs
    have hs := h.start hc
    refine ⟨⟨gs, h1, ?_, by simpa [Series.pending, hc, h.off hc] using h3, by
      rw [hs] at h1; cases h1; simp⟩, hc, h.off hc, rfl, rfl, rfl, rfl, rfl, rfl⟩
    rw [← h2, hc, h.off hc]
    simp
  · rw [if_neg (by simpa using hc)] at e
    exact pull_inv h hc e

/-- Keeps the parameters. -/
structure Series.Same (s s' : Series) : Prop where
  binary : s'.binary = s.binary
  shared : s'.shared = s.shared
  opts : s'.opts = s.opts

/-- State between the gap and the append: everything before is in place, and `g` more empty rows. -/
structure Series.Mid (env : Env) (s : Series) (cs : List Cell) (g : Nat) : Prop where
  gs : ∃ gs : List Stretch, List.Forall₂ (Stretch.Is env s.binary s.shared) gs s.chunks ∧
    gs.flatMap Stretch.rows ++ List.replicate s.chOff none ++ s.cur.map (fun v => some (s.xdtr, v)) =
      rawColumn cs ++ List.replicate g none ∧
    (gs.map Stretch.tag ++ s.pending).IsChain (· ≠ ·) ∧
    (s.cur = [] → s.chOff = 0 → (gs.map Stretch.tag).getLast? ≠ some (some s.xdtr))
  off : s.cur = [] → s.chOff = g

theorem gap_mid {env : Env} {s s' : Series} {cs : List Cell} {row : Nat} (h : s.Inv env cs) (hr : s.eRow < row)
    (e : s.gap env row = .ok s') :
    s'.Mid env cs (row - height cs) ∧ s.Same s' ∧ s'.eRow = s.eRow ∧ s'.sRow = s.sRow ∧
      (s'.cur = [] → s'.chOff = 0 → s'.chunks = []) := by
  have he := h.eRow
  unfold Series.gap at e
  by_cases hg : (row : Int) > s.eRow + 1
  · rw [if_pos hg] at e
    cases hf : s.flush env with
    | error x => rw [hf] at e; simp at e
    | ok s1 =>
      rw [hf] at e
      injection e with e
      subst e
      obtain ⟨⟨gs, h1, h2, h4, hl⟩, h3, _, h5, h6, h7, h8, h9, _⟩ := flush_inv h hf
      have hn : ((row : Int) - s1.eRow - 1).toNat = row - height cs := by rw [h5, he]; omega
      have hz : ((row : Int) - s1.eRow - 1).toNat ≠ 0 := by rw [h5]; omega
      refine ⟨⟨⟨gs, ?_, ?_, ?_, fun _ h0 => absurd h0 hz⟩, ?_⟩, ⟨h7, h8, h9⟩, h5, h6, fun _ h0 => absurd h0 hz⟩
      · simp only [h7, h8]; exact h1
      · simp only [h3, h2, List.map_nil, List.append_nil, hn]
      · simp only [Series.pending, h3, ne_eq, hz, not_false_eq_true, if_true, not_true_eq_false, if_false,
          List.append_nil]
        refine List.isChain_append.mpr ⟨h4, by simp, ?_⟩
        intro x hx y hy
        simp only [List.head?_cons, Option.mem_def, Option.some.injEq] at hy
        subst hy
        rintro rfl
        exact hl hx
      · intro _; exact hn
  · rw [if_neg hg] at e
    injection e with e
    subst e
    have : row - height cs = 0 := by omega
    obtain ⟨gs, h1, h2, h3⟩ := h.gs
    refine ⟨⟨⟨gs, h1, by rw [h2, this]; simp, h3, ?_⟩, ?_⟩, ⟨rfl, rfl, rfl⟩, rfl, rfl, fun hc _ => h.start hc⟩
    · intro hc _
      have hs := h.start hc
      rw [hs] at h1
      cases h1
      simp
    · intro hc
      rw [this]; exact h.off hc

theorem retype_mid {env : Env} {s s' : Series} {cs : List Cell} {g xdt : Nat} (h : s.Mid env cs g)
    (h0 : s.cur = [] → s.chOff = 0 → s.chunks = [])
    (e : s.retype env xdt = .ok s') :
    s'.Mid env cs g ∧ s.Same s' ∧ s'.eRow = s.eRow ∧ s'.sRow = s.sRow ∧ s'.xdtr = xdt := by
  unfold Series.retype at e
  by_cases hx : xdt ≠ s.xdtr
  · rw [if_pos hx] at e
    unfold Series.flush at e
    by_cases hc : s.cur = []
    · rw [if_pos (by simp [hc])] at e
      simp only at e
      injection e with e
      subst e
      obtain ⟨gs, h1, h2, h3, _⟩ := h.gs
      refine ⟨⟨⟨gs, h1, ?_, ?_, ?_⟩, h.off⟩, ⟨rfl, rfl, rfl⟩, rfl, rfl, rfl⟩
      · rw [← h2, hc]
        simp
      · simpa [Series.pending, hc] using h3
      · intro _ hz
        rw [h0 hc hz] at h1
        cases h1
        simp
    · rw [if_neg (by simpa using hc)] at e
      unfold Series.pull at e
      cases hm : makeChunk env s.binary s.shared s.xdtr s.cur with
      | error x => rw [hm] at e; simp at e
      | ok c =>
        rw [hm] at e
        simp only at e
        injection e with e
        subst e
        obtain ⟨gs, h1, h2, h4, _⟩ := h.gs
        have hg : g = 0 := by
          -- the current run is not empty, so the last row is not empty
          by_contra hg
          have h3 : (gs.flatMap Stretch.rows ++ List.replicate s.chOff none ++
              s.cur.map (fun v => some (s.xdtr, v))).getLast? = (rawColumn cs ++ List.replicate g none).getLast? := by
            rw [h2]
          rw [List.getLast?_append, List.getLast?_append] at h3
          rw [List.getLast?_map, List.getLast?_append, List.getLast?_replicate, List.getLast?_replicate] at h3
          rw [if_neg hg] at h3
          cases hl : s.cur.getLast? with
          | none => rw [List.getLast?_eq_none_iff] at hl; exact hc hl
          | some v => rw [hl] at h3; simp at h3
        subst hg
        refine ⟨⟨?_, fun _ => rfl⟩, ⟨rfl, rfl, rfl⟩, rfl, rfl, rfl⟩
        by_cases h0 : s.chOff = 0
        · refine ⟨gs ++ [.run s.xdtr s.cur], ?_, ?_, by simpa [Series.pending, h0, hc, Stretch.tag] using h4, by
            simpa [Stretch.tag] using fun e => hx e.symm⟩
          · simp only [h0, ne_eq, not_true_eq_false, if_false, List.append_nil]
            exact List.rel_append h1 (.cons ⟨hc, hm⟩ .nil)
          · rw [← h2, h0]
            simp [Stretch.rows, List.flatMap_append]
        · refine ⟨gs ++ [.gap s.chOff, .run s.xdtr s.cur], ?_, ?_,
            by simpa [Series.pending, h0, hc, Stretch.tag] using h4, by simpa [Stretch.tag] using fun e => hx e.symm⟩
          · simp only [h0, ne_eq, not_false_eq_true, if_true, List.append_assoc, List.cons_append, List.nil_append]
            exact List.rel_append h1 (.cons ⟨by omega, rfl⟩ (.cons ⟨hc, hm⟩ .nil))
          · rw [← h2]
            simp [Stretch.rows, List.flatMap_append]
  · rw [if_neg hx] at e
    injection e with e
    subst e
    exact ⟨h, ⟨rfl, rfl, rfl⟩, rfl, rfl, by simpa using (not_not.mp hx).symm⟩

theorem height_pos {cs : List Cell} (h : cs ≠ []) : 0 < height cs := by
  cases cs with
  | nil => exact absurd rfl h
  | cons c cs => simp [height]

theorem add_inv {env : Env} {s s' : Series} {cs : List Cell} {c : Cell} (h : s.Inv env cs)
    (e : s.add env c = .ok s') : s'.Inv env (cs ++ [c]) ∧ s.Same s' := by
  have he := h.eRow
  unfold Series.add at e
  by_cases hr : (c.row : Int) ≤ s.eRow
  · rw [if_pos hr] at e
    injection e with e
    subst e
    have hlt : c.row < height cs := by omega
    refine ⟨⟨?_, ?_, ?_, ?_, h.off, h.start⟩, ⟨rfl, rfl, rfl⟩⟩
    · rw [rawColumn_skip cs c hlt]; exact h.gs
    · rw [height_snoc, max_eq_left (by omega)]; exact he
    · rw [h.sRow]
      cases cs with
      | nil => simp [height] at hlt
      | cons d cs => rfl
    · intro hc
      have := h.cur hc
      subst this
      simp [height] at hlt
  · rw [if_neg hr] at e
    cases hg : s.gap env c.row with
    | error x => rw [hg] at e; simp at e
    | ok s1 =>
      rw [hg] at e
      simp only at e
      obtain ⟨m1, k1, e1, r1, z1⟩ := gap_mid h (by omega) hg
      cases ht : s1.retype env c.xdt with
      | error x => rw [ht] at e; simp at e
      | ok s2 =>
        rw [ht] at e
        simp only at e
        obtain ⟨m2, k2, e2, r2, x2⟩ := retype_mid m1 z1 ht
        injection e with e
        subst e
        have hle : height cs ≤ c.row := by omega
        refine ⟨⟨?_, ?_, ?_, ?_, ?_, ?_⟩, ⟨k2.1.trans k1.1, k2.2.trans k1.2, k2.3.trans k1.3⟩⟩
        · obtain ⟨gs, h1, h2, h3, h4⟩ := m2.gs
          refine ⟨gs, h1, ?_, ?_⟩
          · rw [rawColumn_snoc cs c hle, ← h2]
            simp [x2]
          · by_cases hc : s2.cur = []
            · by_cases h0 : s2.chOff = 0
              · simp only [Series.pending, hc, h0, ne_eq, not_true_eq_false, if_false, List.nil_append, List.append_nil,
                  List.cons_ne_self, not_false_eq_true, if_true, reduceCtorEq] at h3 ⊢
                refine List.isChain_append.mpr ⟨h3, by simp, ?_⟩
                intro x hx y hy
                simp only [List.head?_cons, Option.mem_def, Option.some.injEq] at hx hy
                subst hy
                rintro rfl
                exact h4 hc h0 hx
              · simp only [Series.pending, hc, h0, ne_eq, not_true_eq_false, if_false, List.nil_append, List.append_nil,
                  List.cons_ne_self, not_false_eq_true, if_true, reduceCtorEq] at h3 ⊢
                rw [← List.append_assoc]
                refine List.isChain_append.mpr ⟨h3, by simp, ?_⟩
                intro x hx y hy
                simp only [List.getLast?_append, List.getLast?_singleton, Option.some_or, List.head?_cons, Option.mem_def,
                  Option.some.injEq] at hx hy
                subst hx hy
                simp
            · simpa [Series.pending, hc] using h3
        · rw [height_snoc, max_eq_right (by omega)]; simp
        · simp only [r2, r1]
          rw [h.sRow]
          cases cs with
          | nil => simp
          | cons d cs =>
            have : ¬ ((d.row : Int) < 0) := by omega
            simp [this]
        · intro hc; simp at hc
        · intro hc; simp at hc
        · intro hc; simp at hc

theorem fresh_inv (env : Env) (shared : List (Option Str)) (b : Bool) (o : ConcatOpts) :
    (freshSeries shared b o).Inv env [] :=
  ⟨⟨[], .nil, by simp [freshSeries, rawColumn, height], by simp [freshSeries, Series.pending]⟩,
    by simp [freshSeries, height], rfl, fun _ => rfl, fun _ => rfl, fun _ => rfl⟩

theorem addAll_inv {env : Env} : ∀ (cs : List Cell) {s s' : Series} {ds : List Cell}, s.Inv env ds →
    Series.addAll env cs s = .ok s' → s'.Inv env (ds ++ cs) ∧ s.Same s'
  | [], s, s', ds, h, e => by
    rw [Series.addAll] at e
    injection e with e
    subst e
    rw [List.append_nil]
    exact ⟨h, ⟨rfl, rfl, rfl⟩⟩
  | c :: cs, s, s', ds, h, e => by
    rw [Series.addAll] at e
    cases ha : s.add env c with
    | error x => rw [ha] at e; simp at e
    | ok s1 =>
      rw [ha] at e
      obtain ⟨h1, k1⟩ := add_inv h ha
      obtain ⟨h2, k2⟩ := addAll_inv cs h1 e
      rw [List.append_assoc] at h2
      exact ⟨h2, ⟨k2.1.trans k1.1, k2.2.trans k1.2, k2.3.trans k1.3⟩⟩

/-! ## Chunks from runs -/

theorem leNat_lt (b : Bytes) : leNat b < 256 ^ b.length := by
  induction b with
  | nil => simp [leNat]
  | cons x b ih =>
    have := x.toNat_lt
    rw [leNat, List.length_cons, pow_succ]
    omega

theorem joinRaw_bytes (bs : List Bytes) : joinRaw (bs.map .bytes) = .ok bs.flatten := by
  induction bs with
  | nil => rfl
  | cons b bs ih => rw [List.map_cons, joinRaw, ih]; rfl

theorem flatten_length (w : Nat) (bs : List Bytes) (h : ∀ b ∈ bs, b.length = w) : bs.flatten.length = w * bs.length := by
  induction bs with
  | nil => simp
  | cons b bs ih =>
    rw [List.flatten_cons, List.length_append, ih fun b hb => h b (by simp [hb]), h b (by simp), List.length_cons]
    ring

theorem piecesOf_flatten (w : Nat) (bs : List Bytes) (h : ∀ b ∈ bs, b.length = w) :
    piecesOf w bs.length bs.flatten = bs := by
  induction bs with
  | nil => rfl
  | cons b bs ih =>
    have hb := h b (by simp)
    rw [List.length_cons, piecesOf, List.flatten_cons]
    rw [List.take_append_of_le_length (by omega), List.take_of_length_le (by omega)]
    rw [List.drop_append_of_le_length (by omega), List.drop_of_length_le (by omega), List.nil_append]
    rw [ih fun b hb => h b (by simp [hb])]

theorem dataToArray_ok (w : Nat) (hw : 0 < w) (bs : List Bytes) (h : ∀ b ∈ bs, b.length = w) :
    dataToArray w (bs.map .bytes) = .ok (bs.map leNat) := by
  unfold dataToArray
  rw [joinRaw_bytes]
  simp only [flatten_length w bs h, Nat.mul_mod_right, ne_eq, not_true_eq_false, if_false]
  rw [Nat.mul_div_cancel_left _ hw, piecesOf_flatten w bs h]

theorem dataToArrow_ok (w : Nat) (bs : List Bytes) (h : ∀ b ∈ bs, b.length = w) :
    dataToArrow w (bs.map .bytes) = .ok (bs.map leNat) := by
  unfold dataToArrow
  rw [joinRaw_bytes]
  simp only [flatten_length w bs h, List.length_map, lt_irrefl, if_false]
  rw [piecesOf_flatten w bs h]

theorem textArray_ok (ss : List Str) : textArray (ss.map .text) = .ok (ss.map some) := by
  induction ss with
  | nil => rfl
  | cons s ss ih => rw [List.map_cons, textArray, ih]; rfl

theorem forall2_shape {β γ δ : Type} {R : γ → δ → Prop} (emb : β → γ) (Q : β → Prop) (g : β → δ)
    (hR : ∀ v x, R v x → ∃ a, v = emb a ∧ Q a ∧ x = g a) {vals : List γ} {vs : List δ}
    (h : List.Forall₂ R vals vs) : ∃ as : List β, vals = as.map emb ∧ (∀ a ∈ as, Q a) ∧ vs = as.map g := by
  induction h with
  | nil => exact ⟨[], rfl, by simp, rfl⟩
  | cons h _ ih =>
    obtain ⟨as, h1, h2, h3⟩ := ih
    obtain ⟨a, e1, e2, e3⟩ := hR _ _ h
    refine ⟨a :: as, by simp [e1, h1], ?_, by simp [e3, h3]⟩
    intro x hx
    rcases List.mem_cons.mp hx with rfl | hx
    · exact e2
    · exact h2 x hx

theorem xlsb_bytes {shared : List (Option Str)} {xdt w : Nat} (g : Nat → Val)
    (hv : ∀ b : Bytes, xlsbValue shared xdt (.bytes b) = if b.length = w then some (some (g (leNat b))) else none)
    (hx : xdt ≠ 0x18) {vals : List Raw} {vs : List (Option Val)}
    (h : List.Forall₂ (fun v x => xlsbValue shared xdt v = some x) vals vs) :
    ∃ bs : List Bytes, vals = bs.map .bytes ∧ (∀ b ∈ bs, b.length = w) ∧ vs = bs.map fun b => some (g (leNat b)) := by
  refine forall2_shape _ _ _ ?_ h
  intro v x e
  cases v with
  | text s => simp [xlsbValue, hx] at e
  | bytes b =>
    rw [hv] at e
    split at e
    · rename_i hl
      injection e with e
      exact ⟨b, rfl, hl, e.symm⟩
    · simp at e

theorem shared_vs {shared : List (Option Str)} (l : List Nat) (h : ∀ n ∈ l, ∃ v, shared[n]? = some v) :
    l.map (shared[·]?) = (l.map fun n => (shared[n]?).getD none).map some := by
  rw [List.map_map]
  apply List.map_congr_left
  intro n hn
  obtain ⟨v, hv⟩ := h n hn
  simp [hv]

theorem xlsb_xdt {shared : List (Option Str)} {xdt : Nat} {v : Raw} {x : Option Val}
    (h : xlsbValue shared xdt v = some x) :
    xdt = 0x18 ∨ xdt = 0x11 ∨ xdt = 0x21 ∨ xdt = 0x25 ∨ xdt = 0x22 ∨ xdt = 0x28 ∨ xdt = 0x24 := by
  cases v with
  | text s =>
    simp only [xlsbValue] at h
    split at h
    · simp [*]
    · simp at h
  | bytes b =>
    by_contra hn
    simp only [not_or] at hn
    simp [xlsbValue, hn] at h

theorem xlsb_holds (env : Env) (shared : List (Option Str)) (xdt : Nat) (vals : List Raw) (vs : List (Option Val))
    (hne : vals ≠ []) (h : List.Forall₂ (fun v x => xlsbValue shared xdt v = some x) vals vs) :
    ∃ c, makeChunk env true shared xdt vals = .ok c ∧ c.Holds (tagKind xdt) vs := by
  have hx : xdt = 0x18 ∨ xdt = 0x11 ∨ xdt = 0x21 ∨ xdt = 0x25 ∨ xdt = 0x22 ∨ xdt = 0x28 ∨ xdt = 0x24 := by
    cases h with
    | nil => exact absurd rfl hne
    | cons h _ => exact xlsb_xdt h
  rcases hx with rfl | rfl | rfl | rfl | rfl | rfl | rfl
  · obtain ⟨ss, rfl, -, rfl⟩ := forall2_shape (β := Str) .text (fun _ => True) (fun s => some (.str s)) (by
      intro v x e
      cases v with
      | text s => simp only [xlsbValue, if_true] at e; injection e with e; exact ⟨s, rfl, trivial, e.symm⟩
      | bytes b => simp [xlsbValue] at e) h
    refine ⟨⟨.strs (ss.map some), 0x18, ss.length, []⟩, ?_, ?_, ?_⟩
    · simp [makeChunk, hasBit, TYPE_STRING, Chunk.xlsbStrings, REPR_SHARED, textArray_ok, REPR_PREPARED]
    · have := Denotes.str (ss.map some) ss.length []
      simpa [tagKind, Function.comp_def] using this
    · simp
  · obtain ⟨bs, rfl, hq, rfl⟩ := forall2_shape (β := Bytes) .bytes
      (fun b => b.length = 4 ∧ ∃ v, shared[leNat b]? = some v)
      (fun b => ((shared[leNat b]?).getD none).map .str) (by
      intro v x e
      cases v with
      | text s => simp [xlsbValue] at e
      | bytes b =>
        by_cases hl : b.length = 4
        · simp only [xlsbValue, hl, and_self, if_true] at e
          cases hs : shared[leNat b]? with
          | none => rw [hs] at e; simp at e
          | some y =>
            rw [hs] at e
            injection e with e
            exact ⟨b, rfl, ⟨hl, y, hs⟩, by simp [hs, e]⟩
        · simp [xlsbValue, hl] at e) h
    refine ⟨⟨.idx (bs.map leNat), 0x11, bs.length, shared⟩, ?_, ?_, ?_⟩
    · simp [makeChunk, hasBit, TYPE_STRING, Chunk.xlsbStrings, REPR_SHARED, dataToArrow_ok 4 bs fun b hb => (hq b hb).1]
    · have := Denotes.shared (bs.map leNat) bs.length shared ((bs.map leNat).map fun n => (shared[n]?).getD none)
        (shared_vs _ (by
          intro n hn
          obtain ⟨b, hb, rfl⟩ := List.mem_map.mp hn
          exact (hq b hb).2))
      simpa [tagKind, Function.comp_def] using this
    · simp
  · obtain ⟨bs, rfl, hq, rfl⟩ := xlsb_bytes (w := 4) (fun n => .f8 (rkToF8 (BitVec.ofNat 32 n)))
      (by intro b; simp [xlsbValue]) (by decide) h
    refine ⟨⟨.u32 ((bs.map leNat).map (BitVec.ofNat 32)), 0x21, bs.length, []⟩, ?_, ?_, ?_⟩
    · simp [makeChunk, hasBit, TYPE_STRING, Chunk.xlsbNumeric, REPR_RKNUMBER, REPR_TEMPORAL, REPR_BOOLEAN,
        TYPE_NUMERIC, dataToArray_ok 4 (by decide) bs hq]
    · have := Denotes.rk ((bs.map leNat).map (BitVec.ofNat 32)) bs.length []
      simpa [tagKind, Function.comp_def] using this
    · simp
  · obtain ⟨bs, rfl, hq, rfl⟩ := xlsb_bytes (w := 4) (fun n => .ts (f8ToMsWin (rkToF8 (BitVec.ofNat 32 n))))
      (by intro b; simp [xlsbValue]) (by decide) h
    refine ⟨⟨.u32 ((bs.map leNat).map (BitVec.ofNat 32)), 0x25, bs.length, []⟩, ?_, ?_, ?_⟩
    · simp [makeChunk, hasBit, TYPE_STRING, Chunk.xlsbNumeric, REPR_RKNUMBER, REPR_TEMPORAL, REPR_BOOLEAN,
        TYPE_NUMERIC, dataToArray_ok 4 (by decide) bs hq]
    · have := Denotes.rkSerial ((bs.map leNat).map (BitVec.ofNat 32)) bs.length []
      simpa [tagKind, Function.comp_def] using this
    · simp
  · obtain ⟨bs, rfl, hq, rfl⟩ := xlsb_bytes (w := 1) (fun n => .f8 (.fin (n : ℚ)))
      (by intro b; simp [xlsbValue]) (by decide) h
    refine ⟨⟨.f8 ((bs.map leNat).map fun n : Nat => .fin (n : ℚ)), 0x28, bs.length, []⟩, ?_, ?_, ?_⟩
    · simp [makeChunk, hasBit, TYPE_STRING, Chunk.xlsbNumeric, REPR_RKNUMBER, REPR_TEMPORAL, REPR_BOOLEAN,
        TYPE_NUMERIC, REPR_PREPARED, dataToArray_ok 1 (by decide) bs hq]
    · have := Denotes.num ((bs.map leNat).map fun n : Nat => .fin (n : ℚ)) 0x28 bs.length [] (.inl rfl)
      simpa [tagKind, Function.comp_def] using this
    · simp
  · obtain ⟨bs, rfl, hq, rfl⟩ := xlsb_bytes (w := 8) (fun n => .f8 (F64.ofBits n))
      (by intro b; simp [xlsbValue]) (by decide) h
    refine ⟨⟨.f8 ((bs.map leNat).map F64.ofBits), 0x28, bs.length, []⟩, ?_, ?_, ?_⟩
    · simp [makeChunk, hasBit, TYPE_STRING, Chunk.xlsbNumeric, REPR_RKNUMBER, REPR_TEMPORAL, REPR_BOOLEAN,
        TYPE_NUMERIC, REPR_PREPARED, dataToArray_ok 8 (by decide) bs hq]
    · have := Denotes.num ((bs.map leNat).map F64.ofBits) 0x28 bs.length [] (.inl rfl)
      simpa [tagKind, Function.comp_def] using this
    · simp
  · obtain ⟨bs, rfl, hq, rfl⟩ := xlsb_bytes (w := 8) (fun n => .ts (f8ToMsWin (F64.ofBits n)))
      (by intro b; simp [xlsbValue]) (by decide) h
    refine ⟨⟨.f8 ((bs.map leNat).map F64.ofBits), 0x24, bs.length, []⟩, ?_, ?_, ?_⟩
    · simp [makeChunk, hasBit, TYPE_STRING, Chunk.xlsbNumeric, REPR_RKNUMBER, REPR_TEMPORAL, REPR_BOOLEAN,
        TYPE_NUMERIC, REPR_PREPARED, dataToArray_ok 8 (by decide) bs hq]
    · have := Denotes.serial ((bs.map leNat).map F64.ofBits) bs.length []
      simpa [tagKind, Function.comp_def] using this
    · simp

theorem fromiterF8_ok (env : Env) (ss : List Str) (h : ∀ s ∈ ss, (env.pyFloat s).isSome) :
    fromiterF8 env (ss.map .text) = .ok (ss.map fun s => (env.pyFloat s).getD (.fin 0)) := by
  induction ss with
  | nil => rfl
  | cons s ss ih =>
    obtain ⟨x, hx⟩ := Option.isSome_iff_exists.mp (h s (by simp))
    rw [List.map_cons, fromiterF8, hx, ih fun s hs => h s (by simp [hs])]
    simp [hx]

theorem fromiterF8_bad (env : Env) (ss : List Str) (h : ∃ s ∈ ss, env.pyFloat s = none) :
    fromiterF8 env (ss.map .text) = .error .valueError := by
  induction ss with
  | nil => obtain ⟨s, hs, _⟩ := h; simp at hs
  | cons s ss ih =>
    rw [List.map_cons, fromiterF8]
    cases hx : env.pyFloat s with
    | none => rfl
    | some x =>
      simp only
      rw [ih ?_]
      obtain ⟨t, ht, e⟩ := h
      rcases List.mem_cons.mp ht with rfl | ht
      · rw [hx] at e; simp at e
      · exact ⟨t, ht, e⟩

theorem fromiterU32_ok (env : Env) (ss : List Str) (h : ∀ s ∈ ss, ∃ n, env.pyInt s = some n ∧ n < 2 ^ 32) :
    fromiterU32 env (ss.map .text) = .ok (ss.map fun s => (env.pyInt s).getD 0) := by
  induction ss with
  | nil => rfl
  | cons s ss ih =>
    obtain ⟨x, hx, hl⟩ := h s (by simp)
    rw [List.map_cons, fromiterU32, hx, ih fun s hs => h s (by simp [hs])]
    simp only
    rw [if_neg (by omega)]
    simp [hx]

theorem xlsx_xdt {env : Env} {shared : List (Option Str)} {xdt : Nat} {v : Raw} {x : Option Val}
    (h : xlsxValue env shared xdt v = some x) :
    xdt = 0x18 ∨ xdt = 0x11 ∨ xdt = 0x20 ∨ xdt = 0x24 := by
  cases v with
  | bytes b => simp [xlsxValue] at h
  | text s =>
    by_contra hn
    simp only [not_or] at hn
    simp [xlsxValue, hn] at h

theorem xlsx_holds (env : Env) (shared : List (Option Str)) (xdt : Nat) (vals : List Raw) (vs : List (Option Val))
    (hne : vals ≠ []) (h : List.Forall₂ (fun v x => xlsxValue env shared xdt v = some x) vals vs) :
    ∃ c, makeChunk env false shared xdt vals = .ok c ∧ c.Holds (tagKind xdt) vs := by
  have hx : xdt = 0x18 ∨ xdt = 0x11 ∨ xdt = 0x20 ∨ xdt = 0x24 := by
    cases h with
    | nil => exact absurd rfl hne
    | cons h _ => exact xlsx_xdt h
  rcases hx with rfl | rfl | rfl | rfl
  · obtain ⟨ss, rfl, -, rfl⟩ := forall2_shape (β := Str) .text (fun _ => True) (fun s => some (.str s)) (by
      intro v x e
      cases v with
      | text s => simp only [xlsxValue, if_true] at e; injection e with e; exact ⟨s, rfl, trivial, e.symm⟩
      | bytes b => simp [xlsxValue] at e) h
    refine ⟨⟨.strs (ss.map some), 0x18, ss.length, []⟩, ?_, ?_, ?_⟩
    · simp [makeChunk, hasBit, TYPE_STRING, Chunk.xlsxStrings, REPR_SHARED, textArray_ok, REPR_PREPARED]
    · have := Denotes.str (ss.map some) ss.length []
      simpa [tagKind, Function.comp_def] using this
    · simp
  · obtain ⟨ss, rfl, hq, rfl⟩ := forall2_shape (β := Str) .text
      (fun s => (∃ n, env.pyInt s = some n ∧ n < 2 ^ 32) ∧ ∃ v, shared[(env.pyInt s).getD 0]? = some v)
      (fun s => ((shared[(env.pyInt s).getD 0]?).getD none).map .str) (by
      intro v x e
      cases v with
      | bytes b => simp [xlsxValue] at e
      | text s =>
        simp only [xlsxValue] at e
        rw [if_neg (by decide), if_pos trivial] at e
        cases hi : env.pyInt s with
        | none => rw [hi] at e; simp at e
        | some n =>
          rw [hi, Option.bind_some] at e
          split at e
          · rename_i hn
            cases hs : shared[n]? with
            | none => rw [hs] at e; simp at e
            | some y =>
              rw [hs] at e
              injection e with e
              exact ⟨s, rfl, ⟨⟨n, hi, hn⟩, y, by simpa [hi] using hs⟩, by simp [hi, hs, e]⟩
          · simp at e) h
    refine ⟨⟨.idx (ss.map fun s => (env.pyInt s).getD 0), 0x11, ss.length, shared⟩, ?_, ?_, ?_⟩
    · simp [makeChunk, hasBit, TYPE_STRING, Chunk.xlsxStrings, REPR_SHARED, fromiterU32_ok env ss fun s hs => (hq s hs).1]
    · have := Denotes.shared (ss.map fun s => (env.pyInt s).getD 0) ss.length shared
        ((ss.map fun s => (env.pyInt s).getD 0).map fun n => (shared[n]?).getD none)
        (shared_vs _ (by
          intro n hn
          obtain ⟨s, hs, rfl⟩ := List.mem_map.mp hn
          exact (hq s hs).2))
      simpa [tagKind, Function.comp_def] using this
    · simp
  · obtain ⟨ss, rfl, hq, rfl⟩ := forall2_shape (β := Str) .text (fun s => (env.pyFloat s).isSome)
      (fun s => some (.f8 ((env.pyFloat s).getD (.fin 0)))) (by
      intro v x e
      cases v with
      | bytes b => simp [xlsxValue] at e
      | text s =>
        simp only [xlsxValue] at e
        rw [if_neg (by decide), if_neg (by decide), if_pos trivial] at e
        cases hi : env.pyFloat s with
        | none => rw [hi] at e; simp at e
        | some y =>
          rw [hi] at e
          injection e with e
          exact ⟨s, rfl, by simp [hi], by simp [hi, e]⟩) h
    refine ⟨⟨.f8 (ss.map fun s => (env.pyFloat s).getD (.fin 0)), 0x28, ss.length, []⟩, ?_, ?_, ?_⟩
    · simp [makeChunk, hasBit, TYPE_STRING, Chunk.xlsxNumeric, REPR_TEMPORAL, TYPE_NUMERIC, REPR_PREPARED,
        fromiterF8_ok env ss hq]
    · have := Denotes.num (ss.map fun s => (env.pyFloat s).getD (.fin 0)) 0x28 ss.length [] (.inl rfl)
      simpa [tagKind, Function.comp_def] using this
    · simp
  · obtain ⟨ss, rfl, hq, rfl⟩ := forall2_shape (β := Str) .text (fun s => (env.pyFloat s).isSome)
      (fun s => some (.ts (f8ToMsWin ((env.pyFloat s).getD (.fin 0))))) (by
      intro v x e
      cases v with
      | bytes b => simp [xlsxValue] at e
      | text s =>
        simp only [xlsxValue] at e
        rw [if_neg (by decide), if_neg (by decide), if_neg (by decide), if_pos trivial] at e
        cases hi : env.pyFloat s with
        | none => rw [hi] at e; simp at e
        | some y =>
          rw [hi] at e
          injection e with e
          exact ⟨s, rfl, by simp [hi], by simp [hi, e]⟩) h
    refine ⟨⟨.f8 (ss.map fun s => (env.pyFloat s).getD (.fin 0)), 0x24, ss.length, []⟩, ?_, ?_, ?_⟩
    · simp [makeChunk, hasBit, TYPE_STRING, Chunk.xlsxNumeric, REPR_TEMPORAL, TYPE_NUMERIC, REPR_PREPARED,
        fromiterF8_ok env ss hq]
    · have := Denotes.serial (ss.map fun s => (env.pyFloat s).getD (.fin 0)) ss.length []
      simpa [tagKind, Function.comp_def] using this
    · simp

theorem makeChunk_holds (env : Env) (binary : Bool) (shared : List (Option Str)) (xdt : Nat) (vals : List Raw)
    (vs : List (Option Val)) (hne : vals ≠ [])
    (h : List.Forall₂ (fun v x => rawValue env binary shared xdt v = some x) vals vs) :
    ∃ c, makeChunk env binary shared xdt vals = .ok c ∧ c.Holds (tagKind xdt) vs := by
  cases binary with
  | true => exact xlsb_holds env shared xdt vals vs hne h
  | false => exact xlsx_holds env shared xdt vals vs hne h

/-! ## Valid cells -/

theorem rawAt_mem {cs : List Cell} {r x : Nat} {v : Raw} (h : rawAt cs r = some (x, v)) :
    ∃ c ∈ cs, c.xdt = x ∧ c.val = v := by
  unfold rawAt at h
  cases hf : cs.find? fun c => decide (r ≤ c.row) with
  | none => rw [hf] at h; simp at h
  | some c =>
    rw [hf] at h
    simp only at h
    split at h
    · injection h with h
      injection h with h1 h2
      exact ⟨c, List.mem_of_find?_eq_some hf, h1, h2⟩
    · simp at h

theorem rawColumn_valid {env : Env} {b : Bool} {shared : List (Option Str)} {cs : List Cell}
    (h : ValidCells env b shared cs) {x : Nat} {v : Raw} (hm : some (x, v) ∈ rawColumn cs) :
    (rawValue env b shared x v).isSome := by
  unfold rawColumn at hm
  obtain ⟨r, _, hr⟩ := List.mem_map.mp hm
  obtain ⟨c, hc, rfl, rfl⟩ := rawAt_mem hr
  exact h c hc

theorem run_holds {env : Env} {b : Bool} {shared : List (Option Str)} {x : Nat} {vals : List Raw} (hne : vals ≠ [])
    (h : ∀ v ∈ vals, (rawValue env b shared x v).isSome) :
    ∃ c, makeChunk env b shared x vals = .ok c ∧
      c.Holds (tagKind x) (vals.map fun v => rowValue env b shared (some (x, v))) := by
  refine makeChunk_holds env b shared x vals _ hne ?_
  rw [List.forall₂_map_right_iff]
  rw [List.forall₂_same]
  intro v hv
  obtain ⟨y, hy⟩ := Option.isSome_iff_exists.mp (h v hv)
  simp [rowValue, hy]

theorem stretches_column {env : Env} {b : Bool} {shared : List (Option Str)} {gs : List Stretch} {cs : List Chunk}
    (h : List.Forall₂ (Stretch.Is env b shared) gs cs)
    (hv : ∀ x v, some (x, v) ∈ gs.flatMap Stretch.rows → (rawValue env b shared x v).isSome) :
    Column cs ((gs.flatMap Stretch.rows).map (rowValue env b shared)) := by
  induction h with
  | nil => exact .nil
  | @cons g c gs cs hg _ ih =>
    rw [List.flatMap_cons, List.map_append]
    have ih := ih fun x v hm => hv x v (by rw [List.flatMap_cons]; exact List.mem_append_right _ hm)
    cases g with
    | gap n =>
      obtain ⟨_, rfl⟩ := hg
      refine .cons (k := .null) ⟨?_, ?_⟩ ih
      · have := Denotes.null n n []
        simpa [Stretch.rows, rowValue, Chunk.nulls] using this
      · simp [Stretch.rows, Chunk.nulls]
    | run x vals =>
      obtain ⟨hne, hm⟩ := hg
      obtain ⟨c', h1, h2⟩ := run_holds (env := env) (b := b) (shared := shared) (x := x) hne (fun v hvv => hv x v (by
        rw [List.flatMap_cons]
        exact List.mem_append_left _ (List.mem_map_of_mem (f := fun v => some (x, v)) hvv)))
      rw [hm] at h1
      injection h1 with h1
      subst h1
      refine .cons (k := tagKind x) ?_ ih
      simpa [Stretch.rows, Function.comp_def] using h2

theorem flush_ok {env : Env} {s : Series} {rows : List (Option (Nat × Raw))} {gs : List Stretch}
    (h2 : gs.flatMap Stretch.rows ++ List.replicate s.chOff none ++ s.cur.map (fun v => some (s.xdtr, v)) = rows)
    (hv : ∀ x v, some (x, v) ∈ rows → (rawValue env s.binary s.shared x v).isSome) : ∃ s', s.flush env = .ok s' := by
  unfold Series.flush
  by_cases hc : s.cur = []
  · exact ⟨s, if_pos (by simp [hc])⟩
  · rw [if_neg (by simpa using hc)]
    obtain ⟨c, h1, _⟩ := run_holds (env := env) (b := s.binary) (shared := s.shared) (x := s.xdtr) hc (fun v hvv =>
      hv s.xdtr v (by
        rw [← h2]
        exact List.mem_append_right _ (List.mem_map_of_mem (f := fun v => some (s.xdtr, v)) hvv)))
    unfold Series.pull
    rw [h1]
    exact ⟨_, rfl⟩

theorem add_ok {env : Env} {s : Series} {cs : List Cell} {c : Cell} (h : s.Inv env cs)
    (hv : ValidCells env s.binary s.shared cs) : ∃ s', s.add env c = .ok s' := by
  unfold Series.add
  by_cases hr : (c.row : Int) ≤ s.eRow
  · exact ⟨s, if_pos hr⟩
  · rw [if_neg hr]
    obtain ⟨s1, hg⟩ : ∃ s1, s.gap env c.row = .ok s1 := by
      unfold Series.gap
      split
      · obtain ⟨gs, _, h2, _⟩ := h.gs
        obtain ⟨s', hs⟩ := flush_ok (env := env) h2 (fun x v hm => rawColumn_valid hv hm)
        rw [hs]
        exact ⟨_, rfl⟩
      · exact ⟨s, rfl⟩
    rw [hg]
    simp only
    obtain ⟨m1, k1, _, _, _⟩ := gap_mid h (by omega) hg
    obtain ⟨s2, ht⟩ : ∃ s2, s1.retype env c.xdt = .ok s2 := by
      unfold Series.retype
      split
      · obtain ⟨gs, _, h2, _⟩ := m1.gs
        obtain ⟨s', hs⟩ := flush_ok (env := env) h2 (fun x v hm => by
          rw [k1.binary, k1.shared]
          rcases List.mem_append.mp hm with hm | hm
          · exact rawColumn_valid hv hm
          · simp [List.mem_replicate] at hm)
        rw [hs]
        exact ⟨_, rfl⟩
      · exact ⟨s1, rfl⟩
    rw [ht]
    exact ⟨_, rfl⟩

theorem addAll_ok {env : Env} : ∀ (cs : List Cell) {s : Series} {ds : List Cell}, s.Inv env ds →
    ValidCells env s.binary s.shared (ds ++ cs) → ∃ s', Series.addAll env cs s = .ok s'
  | [], s, ds, _, _ => ⟨s, rfl⟩
  | c :: cs, s, ds, h, hv => by
    obtain ⟨s1, h1⟩ := add_ok (c := c) h (fun x hx => hv x (by simp [hx]))
    obtain ⟨i1, k1⟩ := add_inv h h1
    obtain ⟨s2, h2⟩ := addAll_ok cs i1 (by rw [k1.binary, k1.shared]; simpa using hv)
    exact ⟨s2, by rw [Series.addAll, h1]; exact h2⟩

/-- The column after adding valid cells. -/
theorem built_column (env : Env) (b : Bool) (shared : List (Option Str)) (o : ConcatOpts) (cs : List Cell)
    (hv : ValidCells env b shared cs) :
    ∃ s s', Series.addAll env cs (freshSeries shared b o) = .ok s ∧ s.flush env = .ok s' ∧
      Column s'.chunks ((rawColumn cs).map (rowValue env b shared)) ∧
      s'.opts = o ∧ (s'.chunks = [] ↔ cs = []) := by
  have h0 := fresh_inv env shared b o
  obtain ⟨s, hs⟩ := addAll_ok (ds := []) cs h0 (by simpa [freshSeries] using hv)
  obtain ⟨i1, k1⟩ := addAll_inv cs h0 hs
  rw [List.nil_append] at i1
  have hb : s.binary = b := k1.binary
  have hsh : s.shared = shared := k1.shared
  obtain ⟨gs, h1, h2, _⟩ := i1.gs
  obtain ⟨s', hf⟩ := flush_ok (env := env) h2 (fun x v hm => by rw [hb, hsh]; exact rawColumn_valid hv hm)
  obtain ⟨⟨gs', h3, h4, _, _⟩, h5, h6, h7, h8, h9, h10, h11, _⟩ := flush_inv i1 hf
  refine ⟨s, s', hs, hf, ?_, h11.trans k1.opts, ?_⟩
  · rw [← h4]
    rw [hb, hsh] at h3
    exact stretches_column h3 (fun x v hm => rawColumn_valid hv (by rw [← h4]; exact hm))
  · constructor
    · intro hc
      rw [hc] at h3
      cases h3
      by_contra hne
      have := height_pos hne
      have hl := congrArg List.length h4
      simp [rawColumn] at hl
      omega
    · rintro rfl
      rw [Series.addAll] at hs
      injection hs with hs
      subst hs
      have : (freshSeries shared b o).flush env = .ok (freshSeries shared b o) := rfl
      rw [this] at hf
      injection hf with hf
      subst hf
      rfl

/-- A list of valid values as a list of results. -/
theorem values_list {α β : Type} (f : α → Option β) (l : List α) (h : ∀ x ∈ l, (f x).isSome) :
    ∃ r, List.Forall₂ (fun x y => f x = some y) l r := by
  induction l with
  | nil => exact ⟨[], .nil⟩
  | cons x l ih =>
    obtain ⟨r, hr⟩ := ih fun y hy => h y (by simp [hy])
    obtain ⟨y, hy⟩ := Option.isSome_iff_exists.mp (h x (by simp))
    exact ⟨y :: r, .cons hy hr⟩

end Rxls
