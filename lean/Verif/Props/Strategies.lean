import Verif.Spec.Strategies
import Verif.Lemmas.ColumnCount
import Verif.Props.Held
import Verif.Props.RowFilter

/-! # Property C140: a looser strategy keeps every row that a stricter one keeps -/

namespace Rxls

theorem Within.refl (a : List Bool) : Within a a := ⟨rfl, fun _ h => h⟩

theorem Within.cons {x y : Bool} {a b : List Bool} :
    Within (x :: a) (y :: b) ↔ (x = true → y = true) ∧ Within a b := by
  constructor
  · intro ⟨h1, h2⟩
    refine ⟨fun h => ?_, by simpa using h1, fun i hi => ?_⟩
    · simpa using h2 0 (by simpa using h)
    · simpa using h2 (i + 1) (by simpa using hi)
  · rintro ⟨h0, h1, h2⟩
    refine ⟨by simpa using h1, fun i hi => ?_⟩
    cases i with
    | zero => simpa using h0 (by simpa using hi)
    | succ i => simpa using h2 i (by simpa using hi)

theorem Within.count : ∀ {a b : List Bool}, Within a b → trueCount a ≤ trueCount b
  | [], [], _ => Nat.le_refl _
  | [], _ :: _, h => by simp [Within] at h
  | _ :: _, [], h => by simp [Within] at h
  | x :: a, y :: b, h => by
    obtain ⟨h0, h1⟩ := Within.cons.mp h
    have := h1.count
    unfold trueCount at this ⊢
    cases x <;> cases y <;> simp_all
    all_goals omega

theorem Within.zip {f g : Bool → Bool → Bool} (hfg : ∀ x y z, (x = true → y = true) → f x z = true → g y z = true) :
    ∀ {a b c : List Bool}, Within a b → Within (List.zipWith f a c) (List.zipWith g b c)
  | [], [], c, _ => by simpa using Within.refl []
  | [], _ :: _, _, h => by simp [Within] at h
  | _ :: _, [], _, h => by simp [Within] at h
  | x :: a, y :: b, [], _ => by simpa using Within.refl []
  | x :: a, y :: b, z :: c, h => by
    obtain ⟨h0, h1⟩ := Within.cons.mp h
    rw [List.zipWith_cons_cons, List.zipWith_cons_cons]
    exact Within.cons.mpr ⟨hfg x y z h0, Within.zip hfg h1⟩

theorem looser_bool {p q : RowOp} (h : p = q ∨ q = .or) (x y z : Bool) (hxy : x = true → y = true)
    (hf : (if p = .and then Bool.and else Bool.or) x z = true) : (if q = .and then Bool.and else Bool.or) y z = true := by
  rcases h with rfl | rfl
  · cases p <;> cases x <;> cases y <;> cases z <;> simp_all
  · cases p <;> cases x <;> cases y <;> cases z <;> simp_all

theorem foldBools_within : ∀ {l l' : List RowOp}, List.Forall₂ (fun a b => a = b ∨ b = .or) l l' →
    ∀ (bs : List (List Bool)) {acc acc' m : List Bool}, Within acc acc' → foldBools acc (l.zip bs) = .ok m →
      ∃ m', foldBools acc' (l'.zip bs) = .ok m' ∧ Within m m'
  | [], [], _, bs, acc, acc', m, hw, h => by
    simp only [List.zip_nil_left, foldBools] at h ⊢
    cases h
    exact ⟨_, rfl, hw⟩
  | p :: l, q :: l', .cons hpq hl, [], acc, acc', m, hw, h => by
    simp only [List.zip_nil_right, foldBools] at h ⊢
    cases h
    exact ⟨_, rfl, hw⟩
  | p :: l, q :: l', .cons hpq hl, b :: bs, acc, acc', m, hw, h => by
    simp only [List.zip_cons_cons, foldBools, zipBools] at h ⊢
    rw [← hw.1]
    split at h
    · simp at h
    · rename_i e
      split at e
      · rename_i hlen
        cases e
        rw [if_pos hlen]
        exact foldBools_within hl bs (hw.zip (looser_bool hpq)) h
      · simp at e

theorem replicate_zip {α : Type} (op : RowOp) : ∀ bs : List α,
    (List.replicate bs.length op).zip bs = bs.map fun x => (op, x)
  | [] => rfl
  | b :: bs => by rw [List.length_cons, List.replicate_succ, List.zip_cons_cons, replicate_zip op bs, List.map_cons]

/-- A strategy that is not refused is its operators. -/
theorem combine_operators {s : Strategy} {l : List RowOp} (b : List Bool) (bs : List (List Bool))
    (h : s.operators bs.length = some l) : combineFilters s (b :: bs) = foldBools b (l.zip bs) := by
  cases bs with
  | nil => simp [combineFilters, foldBools]
  | cons c cs =>
    cases s with
    | or => cases h; rw [replicate_zip]; rfl
    | and => cases h; rw [replicate_zip]; rfl
    | ops k =>
      simp only [Strategy.operators] at h
      split at h
      · rename_i hk
        cases h
        rw [combineFilters, if_neg (by simpa using hk.1), if_neg (by simpa using hk.2)]
        simp
      · simp at h
    | bad => simp [Strategy.operators] at h

theorem combine_within {s t : Strategy} {b m : List Bool} {bs : List (List Bool)} (h : s.LooserBy bs.length t)
    (hm : combineFilters s (b :: bs) = .ok m) : ∃ m', combineFilters t (b :: bs) = .ok m' ∧ Within m m' := by
  obtain ⟨l, l', h1, h2, h3⟩ := h
  rw [combine_operators b bs h1] at hm
  rw [combine_operators b bs h2]
  exact foldBools_within h3 bs (Within.refl b) hm

/-- C140.  Columns in any state, any offset and length: if the filters leave a row under a strategy, then under a looser
one they leave this row too, and the columns are left in the same state. -/
theorem C140_mask (env : Env) (cols cols' : Cols) (k : Int) (ks : List Int) (s t : Strategy) (off len : Int)
    (h : s.LooserBy ks.length t) (m : Option (List Bool))
    (hm : rowMask env cols (k :: ks) s off len = .ok (cols', m)) :
    ∃ a b, m = some a ∧ rowMask env cols (k :: ks) t off len = .ok (cols', some b) ∧ Within a b := by
  unfold rowMask at hm ⊢
  rw [if_neg (by simp)] at hm ⊢
  split at hm
  · simp at hm
  · rename_i c bs e
    have hb := (onColumns_count _ e).2
    obtain ⟨b, bs, rfl⟩ := List.exists_cons_of_length_eq_add_one (hb.trans (List.length_cons ..))
    have hb : bs.length = ks.length := by simpa using hb
    split at hm
    · simp at hm
    · rename_i a ea
      obtain ⟨a', ea', hw⟩ := combine_within (hb ▸ h) ea
      split at hm
      · simp at hm
      · rename_i h0
        cases hm
        refine ⟨a, a', rfl, ?_, hw⟩
        have := hw.count
        simp only [ea']
        rw [if_neg (by omega)]

theorem maskForV_within (grid : Int → View) (k : Int) (ks : List Int) {s t : Strategy} (off len : Nat)
    (h : s.LooserBy ks.length t) {m : Option (List Bool)} (hm : maskForV grid (k :: ks) s off len = .ok m) :
    ∃ a b, m = some a ∧ maskForV grid (k :: ks) t off len = .ok (some b) ∧ Within a b := by
  unfold maskForV at hm ⊢
  rw [if_neg (by simp)] at hm ⊢
  rw [List.map_cons] at hm ⊢
  split at hm
  · simp at hm
  · rename_i a ea
    obtain ⟨a', ea', hw⟩ := combine_within (by simpa using h) ea
    split at hm
    · simp at hm
    · cases hm
      refine ⟨a, a', rfl, ?_, hw⟩
      have := hw.count
      simp only [ea']
      rw [if_neg (by omega)]

/-- C140.  Two reads of the same cells that differ in the strategy and both give a table give the same column names; with
the looser strategy the table has at least as many rows. -/
theorem C140_rows {A D : Type} (env : Env) (b : Bool) (shared : List (Option Str)) (o : ConcatOpts)
    (lib : Lib A D) (hlib : lib.Lawful) (search : Str → Option (Str → Bool)) (reMatch : Str → Str → Py Bool)
    (args : ReadArgs D) (s : Strategy) (cells : List Cell) (hne : cells ≠ [])
    (hv : ValidCells env b shared cells) (ha : args.Sensible) (row : Nat)
    (hrow : lookupRowV env (heldView env o b shared cells) (firstSeen cells) args.lookupSize.toNat search args.lookup =
      .ok (some row))
    (hlen : 0 < maxSpan cells - row - args.header.height - args.skipAfter) (t t' : Table A)
    (h : readCells env lib search reMatch args (freshSeries shared b o) cells = .ok t)
    (h' : readCells env lib search reMatch { args with strategy := s } (freshSeries shared b o) cells = .ok t')
    (hs : ∀ k ks, filterKeys reMatch t.names (columnsOf cells) args.filters = .ok (k :: ks) →
      args.strategy.LooserBy ks.length s) :
    t.names = t'.names ∧ ∀ x ∈ t.arrays, ∀ y ∈ t'.arrays, lib.len x ≤ lib.len y := by
  have ha' : ({ args with strategy := s } : ReadArgs D).Sensible := ⟨ha.lookup, ha.header⟩
  obtain ⟨_, _, fs, m, g1, g2, g3⟩ := C57_held_row_count env b shared o lib hlib search reMatch args cells hne hv ha row
    hrow hlen t h
  obtain ⟨_, _, fs', m', k1, k2, k3⟩ := C57_held_row_count env b shared o lib hlib search reMatch
    { args with strategy := s } cells hne hv ha' row hrow hlen t' h'
  have hnm : t.names = t'.names := by
    have hd : ∀ r : Nat, lookupRowV env (heldView env o b shared cells) (firstSeen cells)
      args.lookupSize.toNat search args.lookup = .ok (some r) →
      0 < maxSpan cells - r - args.header.height - args.skipAfter := by
      intro r hr
      rw [hrow] at hr
      injection hr with hr
      injection hr with hr
      subst hr
      exact hlen
    rw [C68_history env b shared o lib search reMatch args cells hne hv ha hd] at h
    rw [C68_history env b shared o lib search reMatch { args with strategy := s } cells hne hv ha' hd] at h'
    split at h
    · simp at h
    split at h'
    · simp at h'
    obtain ⟨r, n, _, _, _, p1, p2, _, _, _, rfl⟩ := sheetTableV_inv h
    obtain ⟨r', n', _, _, _, q1, q2, _, _, _, rfl⟩ := sheetTableV_inv h'
    rw [p1] at q1
    injection q1 with q1
    injection q1 with q1
    subst q1
    rw [p2] at q2
    injection q2 with q2
  refine ⟨hnm, fun x hx y hy => ?_⟩
  rw [g3 x hx, k3 y hy]
  rw [← hnm] at k1
  have : fs = fs' := by rw [g1] at k1; injection k1
  subst this
  cases fs with
  | nil =>
    simp only [maskForV, List.isEmpty_nil, if_true] at g2 k2
    cases g2
    cases k2
    exact Nat.le_refl _
  | cons k ks =>
    obtain ⟨a, a', rfl, e, hw⟩ := maskForV_within _ k ks _ _ (hs k ks g1) g2
    rw [e] at k2
    cases k2
    exact hw.count

theorem foldl_looser (has : Int → Bool) : ∀ {l l' : List RowOp}, List.Forall₂ (fun a b => a = b ∨ b = .or) l l' →
    ∀ (ks : List Int) (x y : Bool), (x = true → y = true) →
      (l.zip ks).foldl (fun b p => if p.1 = .and then b && has p.2 else b || has p.2) x = true →
      (l'.zip ks).foldl (fun b p => if p.1 = .and then b && has p.2 else b || has p.2) y = true
  | [], [], _, _, x, y, hxy, h => by simpa using hxy (by simpa using h)
  | p :: l, q :: l', .cons hpq hl, [], x, y, hxy, h => by simpa using hxy (by simpa using h)
  | p :: l, q :: l', .cons hpq hl, k :: ks, x, y, hxy, h => by
    rw [List.zip_cons_cons, List.foldl_cons] at h ⊢
    refine foldl_looser has hl ks _ _ ?_ h
    rcases hpq with rfl | rfl
    · cases p <;> cases x <;> cases y <;> cases has k <;> simp_all
    · cases p <;> cases x <;> cases y <;> cases has k <;> simp_all

theorem ops_foldl_or (has : Int → Bool) : ∀ (ks : List Int) (x : Bool),
    ((List.replicate ks.length RowOp.or).zip ks).foldl
      (fun b p => if p.1 = .and then b && has p.2 else b || has p.2) x = (x || ks.any has)
  | [], x => by simp
  | k :: ks, x => by
    rw [List.length_cons, List.replicate_succ, List.zip_cons_cons, List.foldl_cons, ops_foldl_or has ks]
    simp [Bool.or_assoc]

theorem ops_foldl_and (has : Int → Bool) : ∀ (ks : List Int) (x : Bool),
    ((List.replicate ks.length RowOp.and).zip ks).foldl
      (fun b p => if p.1 = .and then b && has p.2 else b || has p.2) x = (x && ks.all has)
  | [], x => by simp
  | k :: ks, x => by
    rw [List.length_cons, List.replicate_succ, List.zip_cons_cons, List.foldl_cons, ops_foldl_and has ks]
    simp [Bool.and_assoc]

theorem rowKept_operators {s : Strategy} {l : List RowOp} (k : Int) (ks : List Int) (row : List (Int × Val))
    (h : s.operators ks.length = some l) : rowKept s (k :: ks) row =
      (l.zip ks).foldl (fun b p => if p.1 = .and then b && row.any (fun q => q.1 = p.2)
        else b || row.any fun q => q.1 = p.2) (row.any fun q => q.1 = k) := by
  cases s with
  | or =>
    cases h
    rw [ops_foldl_or fun k => row.any fun q => q.1 = k]
    simp [rowKept]
  | and =>
    cases h
    rw [ops_foldl_and fun k => row.any fun q => q.1 = k]
    simp [rowKept]
  | ops c =>
    simp only [Strategy.operators] at h
    split at h
    · cases h; rfl
    · simp at h
  | bad => simp [Strategy.operators] at h

/-- C140.  The rows of a sheet that are read (C128) with a stricter strategy are among those read with a looser one, in
the same order. -/
theorem C140_kept (g : VGrid) (top : Nat) (k : Int) (ks : List Int) (s t : Strategy) (h : s.LooserBy ks.length t) :
    (g.kept top s (k :: ks)).Sublist (g.kept top t (k :: ks)) := by
  obtain ⟨l, l', h1, h2, h3⟩ := h
  refine List.monotone_filter_right _ fun row hr => ?_
  rw [rowKept_operators k ks row h1] at hr
  rw [rowKept_operators k ks row h2]
  exact foldl_looser (fun k => row.any fun q => q.1 = k) h3 ks _ _ id hr

/-- C140.  `and` is the strictest and `or` the loosest strategy. -/
theorem C140_ends (n : Nat) (s : Strategy) (l : List RowOp) (h : s.operators n = some l) :
    Strategy.LooserBy n .and s ∧ Strategy.LooserBy n s .or := by
  have hl : l.length = n ∧ .bad ∉ l := by
    cases s with
    | or => cases h; simp
    | and => cases h; simp
    | ops c =>
      simp only [Strategy.operators] at h
      split at h
      · rename_i hc; cases h; exact hc
      · simp at h
    | bad => simp [Strategy.operators] at h
  obtain ⟨rfl, hb⟩ := hl
  refine ⟨⟨_, _, rfl, h, ?_⟩, ⟨_, _, h, rfl, ?_⟩⟩
  · clear h
    induction l with
    | nil => exact .nil
    | cons p l ih =>
      rw [List.length_cons, List.replicate_succ]
      refine .cons ?_ (ih fun h => hb (List.mem_cons_of_mem _ h))
      cases p <;> simp_all
  · clear h hb
    induction l with
    | nil => exact .nil
    | cons p l ih =>
      rw [List.length_cons, List.replicate_succ]
      exact .cons (.inr rfl) ih

example : Strategy.LooserBy 2 (.ops [.and, .or]) (.ops [.or, .or]) := ⟨_, _, rfl, rfl, by decide⟩
example : ¬ Strategy.LooserBy 2 (.ops [.and, .or]) (.ops [.or, .and]) := by
  rintro ⟨_, _, h1, h2, h3⟩
  cases h1
  cases h2
  revert h3
  decide
example : combineFilters .and [[true, false, true], [true, false, false], [true, true, false]] =
      .ok [true, false, false] ∧
    combineFilters (.ops [.and, .or]) [[true, false, true], [true, false, false], [true, true, false]] =
      .ok [true, true, false] ∧
    combineFilters .or [[true, false, true], [true, false, false], [true, true, false]] = .ok [true, true, true] := by
  decide
example : Within [true, false] [true, true] ∧ ¬ Within [true, false] [false, true] :=
  ⟨⟨rfl, by intro i; match i with | 0 => simp | 1 => simp | i + 2 => simp⟩, fun h => by simpa using h.2 0⟩

end Rxls
