import Verif.Lemmas.HistoryLow
import Verif.Lemmas.NegOffset

/-! # A whole read, reading by reading -/

namespace Rxls

/-- What readings of a column give. -/
def HCol.view (env : Env) (o : ConcatOpts) (C : HCol) : View :=
  fun off len m => fetchedHeld env o (pickRows C.rows off len m)

theorem HCol.view_texts (env : Env) (o : ConcatOpts) (C : HCol) (off len : Nat) (m : Option (List Bool))
    (ht : (C.view env o off len m).dtype = .utf8) (v : Val) (hv : some v ∈ (C.view env o off len m).vals) :
    ∃ x, v = .str x := by
  simp only [HCol.view, fetchedHeld] at ht hv
  rw [ht] at hv
  obtain ⟨y, _, hy⟩ := List.mem_map.mp hv
  cases hj : y.join with
  | none => rw [hj] at hy; simp at hy
  | some y => rw [hj] at hy; simp only [Option.map_some, Option.some.injEq, rendered] at hy; exact ⟨_, hy.symm⟩

theorem HCol.view_length (env : Env) (o : ConcatOpts) (C : HCol) (off len : Nat) :
    (C.view env o off len none).vals.length = len := by
  rw [HCol.view, fetchedHeld, List.length_map]
  have : ∀ rows : List (Option (Nat × Option Val)), (resolvedHeld env o rows).length = rows.length := by
    intro rows
    unfold resolvedHeld
    split
    · split <;> simp
    · split <;> simp
  rw [this, pickRows_length]

/-- What a call gives on a column after some readings. -/
def GivesH {α : Type} (env : Env) (o : ConcatOpts) (f : Series → Series × Py α) (w : Int → Reading) (g : View → α) :
    Prop :=
  ∀ k s C done, s.After env o C done →
    (C.clash o done (w k) = true → ∃ s', f s = (s', .error .arrowNotImplemented)) ∧
    (C.clash o done (w k) = false → ∃ s', f s = (s', .ok (g (C.view env o))) ∧ s'.After env o C (w k :: done))

theorem fetch_givesH (env : Env) (o : ConcatOpts) (off len : Nat) (m : Option (List Bool)) (hm : SomeRow len m) :
    GivesH env o (fetchWith env off len m) (fun k => ⟨k, off, len, m⟩) fun V => .arr (V off len m) :=
  fun k _ _ _ h => ⟨fun hc => h.clash ⟨k, off, len, m⟩ hm hc, fun hc => h.fetch ⟨k, off, len, m⟩ hm hc⟩

theorem presence_givesH (env : Env) (o : ConcatOpts) (off len : Nat) (hl : 0 < len) :
    GivesH env o (presence env off len) (fun k => ⟨k, off, len, none⟩) fun V => (V off len none).vals.map present := by
  intro k s C done h
  obtain ⟨h1, h2⟩ := fetch_givesH env o off len none hl k s C done h
  constructor
  · intro hc
    obtain ⟨s', e⟩ := h1 hc
    unfold fetchWith at e
    exact ⟨s', by unfold presence; rw [e]⟩
  · intro hc
    obtain ⟨s', e, h'⟩ := h2 hc
    unfold fetchWith at e
    exact ⟨s', by unfold presence; rw [e], h'⟩

theorem castArr_texts (env : Env) (A : Arr) (hA : A.dtype = .utf8 → ∀ v, some v ∈ A.vals → ∃ x, v = .str x) :
    ∃ B, castArr env .utf8 A = .ok B ∧ B.vals.map valText = A.vals.map (Option.map (cellText env)) := by
  unfold castArr
  by_cases ht : A.dtype = .utf8
  · rw [if_pos ht]
    refine ⟨A, rfl, ?_⟩
    apply List.map_congr_left
    intro v hv
    cases v with
    | none => rfl
    | some w => obtain ⟨x, rfl⟩ := hA ht w hv; rfl
  · rw [if_neg ht, castVals_rendered env .utf8 A.vals (by intro v _; cases v <;> rfl)]
    refine ⟨_, rfl, ?_⟩
    simp only [List.map_map]
    apply List.map_congr_left
    intro v _
    cases v <;> rfl

theorem textsOf_givesH (env : Env) (o : ConcatOpts) (off len : Nat) (hl : 0 < len) :
    GivesH env o (textsOf env off len) (fun k => ⟨k, off, len, none⟩) fun V => arrTexts env (V off len none) := by
  intro k s C done h
  obtain ⟨h1, h2⟩ := fetch_givesH env o off len none hl k s C done h
  constructor
  · intro hc
    obtain ⟨s', e⟩ := h1 hc
    unfold fetchWith at e
    exact ⟨s', by unfold textsOf Series.toUtf8; rw [e]⟩
  · intro hc
    obtain ⟨s', e, h'⟩ := h2 hc
    unfold fetchWith at e
    refine ⟨s', ?_, h'⟩
    unfold textsOf Series.toUtf8
    rw [e]
    obtain ⟨B, hB, hB2⟩ := castArr_texts env (C.view env o off len none) fun ht v hv => C.view_texts env o off len none ht v hv
    simp only [hB, hB2]
    rfl

theorem firstText_givesH (env : Env) (o : ConcatOpts) (off : Nat) :
    GivesH env o (firstText env off) (fun k => ⟨k, off, 1, none⟩) fun V => ((arrTexts env (V off 1 none))[0]?).join := by
  intro k s C done h
  obtain ⟨h1, h2⟩ := textsOf_givesH env o off 1 (by omega) k s C done h
  rw [Nat.cast_one] at h1 h2
  constructor
  · intro hc
    obtain ⟨s', e⟩ := h1 hc
    exact ⟨s', by unfold firstText; rw [e]⟩
  · intro hc
    obtain ⟨s', e, h'⟩ := h2 hc
    refine ⟨s', ?_, h'⟩
    unfold firstText
    rw [e]
    have hl : (arrTexts env (C.view env o off 1 none)).length = 1 := by rw [arrTexts, List.length_map, C.view_length]
    obtain ⟨x, hx⟩ := List.length_eq_one_iff.mp hl
    simp only [hx]
    rfl

/-! ## Columns -/

/-- The columns after some readings. -/
structure ColsAfter (env : Env) (o : ConcatOpts) (cols : Cols) (sheet : Int → HCol) (done : List Reading) : Prop where
  nodup : (cols.map (·.1)).Nodup
  each : ∀ q ∈ cols, q.2.After env o (sheet q.1) (done.filter (·.col = q.1))

theorem clashIn_append (o : ConcatOpts) (sheet : Int → HCol) : ∀ (ws : List Reading) (done ws' : List Reading),
    clashIn o sheet done (ws ++ ws') = (clashIn o sheet done ws || clashIn o sheet (ws.reverse ++ done) ws')
  | [], done, ws' => by simp [clashIn]
  | w :: ws, done, ws' => by
    rw [List.cons_append, clashIn, clashIn, clashIn_append o sheet ws, List.reverse_cons, List.append_assoc,
      Bool.or_assoc]
    rfl

theorem clashIn_one (o : ConcatOpts) (sheet : Int → HCol) (done : List Reading) (w : Reading) :
    clashIn o sheet done [w] = (sheet w.col).clash o (done.filter (·.col = w.col)) w := by
  simp [clashIn]

theorem onColumn_after {α : Type} {env : Env} {o : ConcatOpts} {cols : Cols} {sheet done}
    (h : ColsAfter env o cols sheet done) {f : Series → Series × Py α} {w g} (hf : GivesH env o f w g)
    (hw : ∀ k, (w k).col = k) {k : Int} (hk : k ∈ cols.map (·.1)) :
    (clashIn o sheet done [w k] = true → onColumn cols k f = .error .arrowNotImplemented) ∧
    (clashIn o sheet done [w k] = false → ∃ cols', onColumn cols k f = .ok (cols', g ((sheet k).view env o)) ∧
      ColsAfter env o cols' sheet (w k :: done) ∧ cols'.map (·.1) = cols.map (·.1)) := by
  obtain ⟨q, hq, rfl⟩ := List.mem_map.mp hk
  have hfind : (cols.find? fun x => x.1 = q.1) = some q := by
    cases hf : cols.find? fun x => x.1 = q.1 with
    | none =>
      rw [List.find?_eq_none] at hf
      exact absurd (decide_eq_true rfl) (hf q hq)
    | some x =>
      have h1 : x.1 = q.1 := by simpa using List.find?_some hf
      have h2 := List.mem_of_find?_eq_some hf
      rw [List.inj_on_of_nodup_map h.nodup h2 hq h1]
  rw [clashIn_one, hw]
  obtain ⟨h1, h2⟩ := hf q.1 q.2 _ _ (h.each q hq)
  constructor
  · intro hc
    obtain ⟨s', e⟩ := h1 hc
    unfold onColumn
    rw [hfind]
    simp only [e]
  · intro hc
    obtain ⟨s', e1, e2⟩ := h2 hc
    unfold onColumn
    rw [hfind]
    simp only [e1]
    have hkeys : (cols.map fun x => if x.1 = q.1 then (x.1, s') else x).map (·.1) = cols.map (·.1) := by
      rw [List.map_map]
      apply List.map_congr_left
      intro x _
      simp only [Function.comp]
      split <;> rfl
    refine ⟨_, rfl, ⟨by rw [hkeys]; exact h.nodup, ?_⟩, hkeys⟩
    intro y hy
    obtain ⟨x, hx, rfl⟩ := List.mem_map.mp hy
    by_cases he : x.1 = q.1
    · simp only [he, if_true]
      rw [List.filter_cons_of_pos (by simp [hw])]
      exact e2
    · simp only [he, if_false]
      rw [List.filter_cons_of_neg (by simp [hw]; exact fun e => he e.symm)]
      exact h.each x hx

theorem onColumns_after {α : Type} {env : Env} {o : ConcatOpts} {sheet} {f : Series → Series × Py α} {w g}
    (hf : GivesH env o f w g) (hw : ∀ k, (w k).col = k) : ∀ (ks : List Int) {cols : Cols} {done : List Reading},
    ColsAfter env o cols sheet done → (∀ k ∈ ks, k ∈ cols.map (·.1)) →
    (clashIn o sheet done (ks.map w) = true → onColumns f cols ks = .error .arrowNotImplemented) ∧
    (clashIn o sheet done (ks.map w) = false →
      ∃ cols', onColumns f cols ks = .ok (cols', ks.map fun k => g ((sheet k).view env o)) ∧
      ColsAfter env o cols' sheet ((ks.map w).reverse ++ done) ∧ cols'.map (·.1) = cols.map (·.1))
  | [], cols, done, h, _ => ⟨by simp [clashIn], fun _ => ⟨cols, rfl, h, rfl⟩⟩
  | k :: ks, cols, done, h, hk => by
    obtain ⟨a1, a2⟩ := onColumn_after h hf hw (hk k (by simp))
    rw [List.map_cons, show w k :: ks.map w = [w k] ++ ks.map w from rfl, clashIn_append]
    cases hc : clashIn o sheet done [w k] with
    | true =>
      refine ⟨fun _ => ?_, fun h0 => by simp at h0⟩
      rw [onColumns, a1 hc]
    | false =>
      obtain ⟨c1, e1, h1, k1⟩ := a2 hc
      obtain ⟨b1, b2⟩ := onColumns_after hf hw ks h1 (fun x hx => by rw [k1]; exact hk x (by simp [hx]))
      rw [Bool.false_or]
      constructor
      · intro h0
        rw [onColumns, e1]
        simp only [b1 h0]
      · intro h0
        obtain ⟨c2, e2, h2, k2⟩ := b2 h0
        refine ⟨c2, ?_, ?_, k2.trans k1⟩
        · rw [onColumns, e1]
          simp only [e2]
          rfl
        · rw [List.reverse_append, List.append_assoc]
          exact h2

/-- The views of the columns. -/
abbrev sheetView (env : Env) (o : ConcatOpts) (sheet : Int → HCol) : Int → View := fun k => (sheet k).view env o

theorem makeHeader_after {env : Env} {o : ConcatOpts} {cols : Cols} {sheet done} (h : ColsAfter env o cols sheet done)
    (row n : Nat) (hn : 0 < n) :
    (clashIn o sheet done ((sortedKeys cols).map fun k => ⟨k, row, n, none⟩) = true →
      makeHeader env cols row n = .error .arrowNotImplemented) ∧
    (clashIn o sheet done ((sortedKeys cols).map fun k => ⟨k, row, n, none⟩) = false →
      ∃ cols', makeHeader env cols row n = .ok (cols',
          (List.range cols.length).map
            (headName ((sortedKeys cols).map fun k => arrTexts env (sheetView env o sheet k row n none)) n)) ∧
        ColsAfter env o cols' sheet (((sortedKeys cols).map fun k => ⟨k, row, n, none⟩).reverse ++ done) ∧
        cols'.map (·.1) = cols.map (·.1)) := by
  have hmem : ∀ k ∈ sortedKeys cols, k ∈ cols.map (·.1) := by
    intro k hk; exact (List.perm_insertionSort _ _).mem_iff.mp hk
  have hlen : (sortedKeys cols).length = cols.length := by
    rw [sortedKeys, (List.perm_insertionSort _ _).length_eq, List.length_map]
  have hvl : ∀ k n, (arrTexts env (sheetView env o sheet k row n none)).length = n := by
    intro k n
    rw [arrTexts, List.length_map, (sheet k).view_length]
  unfold makeHeader
  by_cases h1 : n = 1
  · subst h1
    obtain ⟨a1, a2⟩ := onColumns_after (firstText_givesH env o row) (fun _ => rfl) (sortedKeys cols) h hmem
    rw [if_pos (by simp)]
    constructor
    · intro hc; rw [a1 hc]
    · intro hc
      obtain ⟨c', e, h2, h3⟩ := a2 hc
      refine ⟨c', ?_, h2, h3⟩
      rw [e]
      simp only
      rw [List.map_map, ← hlen]
      have := orUnnamed_names ((sortedKeys cols).map fun k => arrTexts env (sheetView env o sheet k row 1 none)) (by
        intro c hc
        obtain ⟨k, hk, rfl⟩ := List.mem_map.mp hc
        exact hvl k _)
      rw [List.map_map, List.length_map] at this
      rw [← this]
      rfl
  · obtain ⟨a1, a2⟩ := onColumns_after (textsOf_givesH env o row n hn) (fun _ => rfl) (sortedKeys cols) h hmem
    rw [if_neg (by simpa using h1)]
    constructor
    · intro hc; rw [a1 hc]
    · intro hc
      obtain ⟨c', e, h2, h3⟩ := a2 hc
      refine ⟨c', ?_, h2, h3⟩
      rw [e]
      simp only
      rw [headerLoop_names n, List.length_map, hlen]
      intro c hc
      obtain ⟨k, hk, rfl⟩ := List.mem_map.mp hc
      exact hvl k _

theorem headerOf_after {env : Env} {o : ConcatOpts} {cols : Cols} {sheet done} (h : ColsAfter env o cols sheet done)
    (row : Nat) (a : HeaderArg) (ha : 0 ≤ a.height) :
    (clashIn o sheet done (headerReadings (sortedKeys cols) row a) = true →
      headerOf env cols row a = .error .arrowNotImplemented) ∧
    (clashIn o sheet done (headerReadings (sortedKeys cols) row a) = false →
    match namesForV env (sheetView env o sheet) (sortedKeys cols) row a with
    | .error e => headerOf env cols row a = .error e
    | .ok names => ∃ cols', headerOf env cols row a = .ok (cols', a.height, names) ∧
        ColsAfter env o cols' sheet ((headerReadings (sortedKeys cols) row a).reverse ++ done) ∧
        cols'.map (·.1) = cols.map (·.1)) := by
  have hlen : (sortedKeys cols).length = cols.length := by
    rw [sortedKeys, (List.perm_insertionSort _ _).length_eq, List.length_map]
  cases a with
  | names l =>
    refine ⟨by simp [headerReadings, clashIn], fun _ => ?_⟩
    unfold namesForV headerOf
    simp only [hlen]
    by_cases hl : l.length ≠ cols.length
    · simp only [if_pos hl]
    · simp only [if_neg hl]; exact ⟨cols, rfl, h, rfl⟩
  | rows n =>
    unfold namesForV headerOf headerReadings
    by_cases hn : n = 0
    · subst hn
      simp only [if_true, ne_eq, not_true_eq_false, if_false, hlen]
      exact ⟨by simp [clashIn], fun _ => ⟨cols, rfl, h, rfl⟩⟩
    · simp only [hn, if_false, ne_eq, not_false_eq_true, if_true, hlen]
      have h0 : 0 ≤ n := ha
      obtain ⟨a1, a2⟩ := makeHeader_after h row n.toNat (by omega)
      rw [show ((n.toNat : Nat) : Int) = n by omega] at a1 a2
      constructor
      · intro hc; rw [a1 hc]
      · intro hc
        obtain ⟨c, e, h1, h2⟩ := a2 hc
        rw [e]
        exact ⟨c, rfl, h1, h2⟩

theorem findPattern_after {env : Env} {o : ConcatOpts} {sheet} (f : Str → Bool) (size : Nat) (hs : 0 < size) :
    ∀ (ks : List Int) {cols : Cols} {done : List Reading}, ColsAfter env o cols sheet done →
    (∀ k ∈ ks, k ∈ cols.map (·.1)) →
    (clashIn o sheet done ((upTo (fun k => (arrTexts env (sheetView env o sheet k 0 size none)).any (Option.any f)) ks).map
        fun k => ⟨k, 0, size, none⟩) = true →
      findPattern env f size cols ks = .error .arrowNotImplemented) ∧
    (clashIn o sheet done ((upTo (fun k => (arrTexts env (sheetView env o sheet k 0 size none)).any (Option.any f)) ks).map
        fun k => ⟨k, 0, size, none⟩) = false →
      ∃ cols', findPattern env f size cols ks = .ok (cols', rowOr (ks.findSome? fun k =>
          (arrTexts env (sheetView env o sheet k 0 size none)).findIdx? (Option.any f))) ∧
      ColsAfter env o cols' sheet (((upTo (fun k => (arrTexts env (sheetView env o sheet k 0 size none)).any
        (Option.any f)) ks).map fun k => ⟨k, 0, size, none⟩).reverse ++ done) ∧ cols'.map (·.1) = cols.map (·.1))
  | [], cols, done, h, _ => ⟨by simp [upTo, clashIn], fun _ => ⟨cols, rfl, h, rfl⟩⟩
  | k :: ks, cols, done, h, hk => by
    obtain ⟨a1, a2⟩ := onColumn_after h (textsOf_givesH env o 0 size hs) (fun _ => rfl) (hk k (by simp))
    rw [Nat.cast_zero] at a1 a2
    have hup : ∀ p : Int → Bool, (upTo p (k :: ks)).map (fun k => (⟨k, 0, size, none⟩ : Reading)) =
        [⟨k, 0, size, none⟩] ++ if p k then [] else (upTo p ks).map fun k => ⟨k, 0, size, none⟩ := by
      intro p
      rw [upTo]
      split <;> simp
    rw [hup, clashIn_append]
    have hany : (arrTexts env (sheetView env o sheet k 0 size none)).any (Option.any f) =
        ((arrTexts env (sheetView env o sheet k 0 size none)).findIdx? (Option.any f)).isSome := by
      rw [List.findIdx?_isSome]
    rw [hany]
    rw [findPattern]
    cases hc : clashIn o sheet done [⟨k, 0, size, none⟩] with
    | true =>
      refine ⟨fun _ => ?_, fun h0 => by simp at h0⟩
      rw [a1 hc]
    | false =>
      obtain ⟨c1, e1, h1, k1⟩ := a2 hc
      rw [Bool.false_or, e1]
      simp only
      cases hi : (arrTexts env (sheetView env o sheet k 0 size none)).findIdx? (Option.any f) with
      | some i =>
        simp only [Option.isSome_some, if_true, List.append_nil, List.findSome?_cons, hi]
        refine ⟨by simp [clashIn], fun _ => ⟨c1, ?_, h1, k1⟩⟩
        rfl
      | none =>
        obtain ⟨b1, b2⟩ := findPattern_after f size hs ks h1 (fun x hx => by rw [k1]; exact hk x (by simp [hx]))
        simp only [Option.isSome_none, Bool.false_eq_true, if_false, List.findSome?_cons, hi]
        constructor
        · intro h0
          exact b1 h0
        · intro h0
          obtain ⟨c2, e2, h2, k2⟩ := b2 h0
          refine ⟨c2, e2, ?_, k2.trans k1⟩
          rw [List.reverse_append, List.append_assoc]
          exact h2

theorem findHeader_after {env : Env} {o : ConcatOpts} {cols : Cols} {sheet done} (h : ColsAfter env o cols sheet done)
    (search : Str → Option (Str → Bool)) (size : Nat) (hs : 0 < size) (lk : Lookup) :
    (clashIn o sheet done (lookupReadings env (sheetView env o sheet) (cols.map (·.1)) size search lk) = true →
      findHeader env search cols size lk = .error .arrowNotImplemented) ∧
    (clashIn o sheet done (lookupReadings env (sheetView env o sheet) (cols.map (·.1)) size search lk) = false →
    match lookupRowV env (sheetView env o sheet) (cols.map (·.1)) size search lk with
    | .error e => findHeader env search cols size lk = .error e
    | .ok r => ∃ cols', findHeader env search cols size lk = .ok (cols', rowOr r) ∧
        ColsAfter env o cols' sheet
          ((lookupReadings env (sheetView env o sheet) (cols.map (·.1)) size search lk).reverse ++ done) ∧
        cols'.map (·.1) = cols.map (·.1)) := by
  cases lk with
  | none => exact ⟨by simp [lookupReadings, clashIn], fun _ => ⟨cols, rfl, h, rfl⟩⟩
  | column k =>
    unfold lookupRowV findHeader lookupReadings
    simp only
    by_cases hk : k ∈ cols.map (·.1)
    · rw [if_pos hk, if_pos hk]
      obtain ⟨a1, a2⟩ := onColumn_after h (textsOf_givesH env o 0 size hs) (fun _ => rfl) hk
      rw [Nat.cast_zero] at a1 a2
      constructor
      · intro hc; rw [a1 hc]
      · intro hc
        obtain ⟨c1, e1, h1, k1⟩ := a2 hc
        simp only
        rw [e1]
        refine ⟨c1, ?_, h1, k1⟩
        simp only
        rw [findIdx_map_eq Option.isSome Option.isSome _ (sheetView env o sheet k 0 size none).vals (by
          rw [arrTexts, List.map_map]
          apply List.map_congr_left
          intro v _
          cases v <;> rfl)]
        cases (sheetView env o sheet k 0 size none).vals.findIdx? Option.isSome <;> rfl
    · rw [if_neg hk, if_neg hk]
      simp only
      refine ⟨by simp [clashIn], fun _ => ?_⟩
      have : (cols.find? fun q => q.1 = k) = none := by
        rw [List.find?_eq_none]
        intro q hq hqk
        exact hk (List.mem_map.mpr ⟨q, hq, by simpa using hqk⟩)
      unfold onColumn
      rw [this]
  | pattern s =>
    unfold lookupRowV findHeader lookupReadings
    simp only
    cases search s with
    | none => exact ⟨by simp [clashIn], fun _ => rfl⟩
    | some f => exact findPattern_after f size hs _ h (fun k hk => hk)

theorem rowMask_after {env : Env} {o : ConcatOpts} {cols : Cols} {sheet done} (h : ColsAfter env o cols sheet done)
    (fs : List Int) (hfs : ∀ k ∈ fs, k ∈ cols.map (·.1)) (st : Strategy) (off len : Nat) (hl : 0 < len) :
    (clashIn o sheet done (fs.map fun k => ⟨k, off, len, none⟩) = true →
      rowMask env cols fs st off len = .error .arrowNotImplemented) ∧
    (clashIn o sheet done (fs.map fun k => ⟨k, off, len, none⟩) = false →
    match maskForV (sheetView env o sheet) fs st off len with
    | .error e => rowMask env cols fs st off len = .error e
    | .ok m => SomeRow len m ∧ ∃ cols', rowMask env cols fs st off len = .ok (cols', m) ∧
        ColsAfter env o cols' sheet ((fs.map fun k => ⟨k, off, len, none⟩).reverse ++ done) ∧
        cols'.map (·.1) = cols.map (·.1)) := by
  unfold maskForV rowMask
  by_cases hf : fs.isEmpty
  · simp only [if_pos hf]
    rw [List.isEmpty_iff] at hf
    subst hf
    exact ⟨by simp [clashIn], fun _ => ⟨hl, cols, rfl, h, rfl⟩⟩
  · simp only [if_neg hf]
    obtain ⟨a1, a2⟩ := onColumns_after (presence_givesH env o off len hl) (fun _ => rfl) fs h hfs
    constructor
    · intro hc; rw [a1 hc]
    · intro hc
      obtain ⟨c1, e1, h1, k1⟩ := a2 hc
      rw [e1]
      simp only
      cases hc : combineFilters st (fs.map fun k => ((sheet k).view env o off len none).vals.map present) with
      | error e => rfl
      | ok m =>
        simp only
        by_cases ht : trueCount m = 0
        · simp only [if_pos ht]
        · simp only [if_neg ht]
          exact ⟨ht, c1, rfl, h1, k1⟩

theorem keysWhere_sublist {test : Str → Py Bool} : ∀ (l : List (Str × Int)) {ks : List Int}, keysWhere test l = .ok ks →
    ks.Sublist (l.map (·.2))
  | [], ks, h => by rw [keysWhere] at h; injection h with h; subst h; exact .slnil
  | (n, k) :: l, ks, h => by
    rw [keysWhere] at h
    cases h1 : test n with
    | error e => rw [h1] at h; simp at h
    | ok b =>
      rw [h1] at h
      simp only at h
      cases h2 : keysWhere test l with
      | error e => rw [h2] at h; simp at h
      | ok ks' =>
        rw [h2] at h
        injection h with h
        subst h
        have := keysWhere_sublist l h2
        cases b with
        | true => exact this.cons₂ k
        | false => exact this.cons k

theorem filterKeys_nodup {reMatch : Str → Str → Py Bool} {names : List Str} {keys ks : List Int} {f : RowFilters}
    (hn : keys.Nodup) (e : filterKeys reMatch names keys f = .ok ks) : ks.Nodup := by
  have hz : ∀ test, keysWhere test (names.zip keys) = .ok ks → ks.Nodup := by
    intro test h
    refine List.Nodup.sublist (keysWhere_sublist _ h) ?_
    have : ((names.zip keys).map (·.2)).Sublist keys := by
      clear hn e h
      induction names generalizing keys with
      | nil => simp
      | cons n names ih =>
        cases keys with
        | nil => simp
        | cons k keys => simp only [List.zip_cons_cons, List.map_cons]; exact (ih).cons₂ k
    exact hn.sublist this
  cases f with
  | none => rw [filterKeys] at e; injection e with e; subst e; exact List.nodup_nil
  | pattern s =>
    rw [filterKeys] at e
    split at e
    · injection e with e; subst e; exact List.nodup_nil
    · exact hz _ e
  | positions l =>
    rw [filterKeys] at e
    injection e with e
    subst e
    refine List.Nodup.sublist (List.filter_sublist.map _) ?_
    rw [List.zipIdx_map_fst]
    exact hn
  | patterns l => exact hz _ e
  | bad => rw [filterKeys] at e; simp at e

/-- Columns without data rows. -/
theorem columns_low {A : Type} {env : Env} {o : ConcatOpts} {cols : Cols} {sheet done} (h : ColsAfter env o cols sheet done)
    (fs : List Int) (hfs : ∀ k ∈ fs, k ∈ cols.map (·.1)) (hn : fs.Nodup) (st : Strategy) {off len : Int} (ho : 0 < off)
    (hl : len ≤ 0) (hend : ∃ k ∈ if fs.isEmpty then sortedKeys cols else fs, ((sheet k).rows.length : Int) ≤ off)
    (rest : List Fetched → Py A) :
    (match rowMask env cols fs st off len with
      | .error e => (.error e : Py A)
      | .ok (cols, mask) =>
        match onColumns (fetchWith env off len mask) cols (sortedKeys cols) with
        | .error e => .error e
        | .ok (_, fetched) => rest fetched) = .error .valueError := by
  have hperm := List.perm_insertionSort (· ≤ ·) (cols.map (·.1))
  unfold rowMask
  by_cases hf : fs.isEmpty
  · rw [if_pos hf] at hend ⊢
    simp only
    have hk : ∀ k, k ∈ sortedKeys cols ↔ k ∈ cols.map (·.1) := fun k => hperm.mem_iff
    rw [onColumns_error (fetchWith env off len none) .valueError (sortedKeys cols) cols (hperm.nodup_iff.mpr h.nodup)
      h.nodup ?_ ?_]
    all_goals try rfl
    · intro k hkk
      obtain ⟨q, hq, rfl⟩ := List.mem_map.mp ((hk k).mp hkk)
      exact ⟨q, hq, rfl, ((h.each q hq).low ho hl).1⟩
    · obtain ⟨k, hkk, hr⟩ := hend
      obtain ⟨q, hq, rfl⟩ := List.mem_map.mp ((hk k).mp hkk)
      exact ⟨q, hq, hkk, ((h.each q hq).low ho hl).2 hr⟩
  · rw [if_neg hf] at hend ⊢
    have hp : ∀ s : Series, ((s.toArrow env off len none).2 = .error .valueError →
        (presence env off len s).2 = .error .valueError) ∧
        ((∃ a, (s.toArrow env off len none).2 = .ok a) → ∃ a, (presence env off len s).2 = .ok a) := by
      intro s
      unfold presence
      generalize s.toArrow env off len none = r
      obtain ⟨s', r⟩ := r
      constructor
      · rintro rfl; rfl
      · rintro ⟨a, rfl⟩
        cases a <;> exact ⟨_, rfl⟩
    rw [onColumns_error (presence env off len) .valueError fs cols hn h.nodup ?_ ?_]
    all_goals try rfl
    · intro k hkk
      obtain ⟨q, hq, rfl⟩ := List.mem_map.mp (hfs k hkk)
      exact ⟨q, hq, rfl, ((h.each q hq).low ho hl).1.imp (hp q.2).1 (hp q.2).2⟩
    · obtain ⟨k, hkk, hr⟩ := hend
      obtain ⟨q, hq, rfl⟩ := List.mem_map.mp (hfs k hkk)
      exact ⟨q, hq, hkk, (hp q.2).1 (((h.each q hq).low ho hl).2 hr)⟩

/-- `read` on columns, with what each reading does to them. -/
theorem readColumns_after {A D : Type} {env : Env} {o : ConcatOpts} {cols : Cols} {sheet}
    (h : ColsAfter env o cols sheet [])
    (lib : Lib A D) (search : Str → Option (Str → Bool)) (reMatch : Str → Str → Py Bool) (args : ReadArgs D)
    (size : Nat) (hs : 0 < size) (hsz : args.lookupSize = size) {ml : Int} (hml : maxLen cols = .ok ml)
    (hh : 0 ≤ args.header.height)
    (hml0 : 0 < ml) (hlen : DataOrEnd env search reMatch args (sheetView env o sheet) (cols.map (·.1)) (sortedKeys cols) ml
      fun k off => (sheet k).rows.length ≤ off) :
    readColumns env lib search reMatch args cols =
      if clashIn o sheet [] (sheetReadings env search reMatch args (sheetView env o sheet) (cols.map (·.1))
          (sortedKeys cols) ml) = true then .error .arrowNotImplemented
      else sheetResult env lib search reMatch args (sheetView env o sheet) (cols.map (·.1)) (sortedKeys cols) ml := by
  have hk : ∀ {c : Cols}, c.map (·.1) = cols.map (·.1) → sortedKeys c = sortedKeys cols := by
    intro c hc; unfold sortedKeys; rw [hc]
  have hmem : ∀ {c : Cols}, c.map (·.1) = cols.map (·.1) → ∀ k ∈ sortedKeys cols, k ∈ c.map (·.1) := by
    intro c hc k hkk; rw [hc]; exact (List.perm_insertionSort _ _).mem_iff.mp hkk
  obtain ⟨h1, h1'⟩ := findHeader_after h search size hs args.lookup
  unfold sheetResult sheetTableV sheetReadings
  unfold DataOrEnd at hlen
  rw [hsz, Int.toNat_natCast] at hlen
  rw [hsz, Int.toNat_natCast, clashIn_append]
  cases hc1 : clashIn o sheet [] (lookupReadings env (sheetView env o sheet) (cols.map (·.1)) size search args.lookup) with
  | true =>
    rw [Bool.true_or, if_pos rfl]
    unfold readColumns
    simp only [hml, hsz, h1 hc1]
  | false =>
  replace h1 := h1' hc1
  rw [Bool.false_or]
  cases hrow : lookupRowV env (sheetView env o sheet) (cols.map (·.1)) size search args.lookup with
  | error e =>
    rw [hrow] at h1
    simp only at h1
    unfold readColumns
    simp only [hml, hsz, h1, clashIn, Bool.false_eq_true, if_false]
  | ok r =>
    rw [hrow] at h1
    obtain ⟨c1, e1, s1, k1⟩ := h1
    cases r with
    | none =>
      unfold readColumns
      simp only [hml, hsz, e1, clashIn, Bool.false_eq_true, if_false]
      rw [if_pos (show rowOr none = -1 from rfl)]
    | some row =>
      simp only
      have hne : ¬ (rowOr (some row) = -1) := by simp only [rowOr]; omega
      obtain ⟨h2, h2'⟩ := headerOf_after s1 row args.header hh
      rw [hk k1] at h2 h2'
      rw [clashIn_append]
      generalize hd1 : (lookupReadings env (sheetView env o sheet) (cols.map (·.1)) size search args.lookup).reverse ++ [] =
        d1 at h2 h2' s1
      cases hc2 : clashIn o sheet d1 (headerReadings (sortedKeys cols) row args.header) with
      | true =>
        rw [Bool.true_or, if_pos rfl]
        unfold readColumns
        simp only [hml, hsz, e1, if_neg hne]
        simp only [rowOr, h2 hc2]
      | false =>
      replace h2 := h2' hc2
      rw [Bool.false_or]
      cases hnames : namesForV env (sheetView env o sheet) (sortedKeys cols) row args.header with
      | error e =>
        rw [hnames] at h2
        simp only at h2
        unfold readColumns
        simp only [hml, hsz, e1, if_neg hne, clashIn, Bool.false_eq_true, if_false]
        simp only [rowOr, h2, ite_self]
      | ok names =>
        rw [hnames] at h2
        obtain ⟨c2, e2, s2, k2⟩ := h2
        have k2 := k2.trans k1
        simp only
        generalize (headerReadings (sortedKeys cols) row args.header).reverse ++ d1 = d2 at s2
        cases hfs : filterKeys reMatch names (sortedKeys cols) args.filters with
        | error e =>
          unfold readColumns
          simp only [hml, hsz, e1, if_neg hne, clashIn, Bool.false_eq_true, if_false]
          simp only [rowOr, e2, hk k2, hfs, ite_self]
        | ok fs =>
          simp only
          have start0 : ∀ x, (match rowMask env c2 fs args.strategy (args.header.height + row + args.skipAfter)
                (ml - row - args.header.height - args.skipAfter) with
              | .error e => (.error e : Py (Table A))
              | .ok (cols, mask) =>
                match onColumns (fetchWith env (args.header.height + row + args.skipAfter)
                  (ml - row - args.header.height - args.skipAfter) mask) cols (sortedKeys cols) with
                | .error e => .error e
                | .ok (_, fetched) =>
                  match applyDtypes lib names (fetched.map lib.ofFetched) args.dtypes with
                  | .error e => .error e
                  | .ok arrays => makeTable lib names arrays) = x →
              readColumns env lib search reMatch args cols = x := by
            intro x hx
            unfold readColumns
            simp only [hml, hsz, e1, if_neg hne]
            simp only [rowOr, e2, hk k2, hfs]
            exact hx
          by_cases hl : ¬ 0 < ml - row - args.header.height - args.skipAfter
          · have hz : (ml - row - args.header.height - args.skipAfter).toNat = 0 := by omega
            simp only [hz, if_true, clashIn, Bool.false_eq_true, if_false, if_neg hl]
            refine start0 _ (columns_low s2 fs (fun k hkk => hmem k2 k (filterKeys_sub _ _ _ _ hfs k hkk))
              (filterKeys_nodup ((List.perm_insertionSort _ _).nodup_iff.mpr h.nodup) hfs) args.strategy
              (by omega) (by omega) ?_ _)
            rw [hk k2]
            obtain ⟨k, hkk, hr⟩ := ((hlen row hrow).resolve_left hl) names fs hnames hfs
            exact ⟨k, hkk, by omega⟩
          replace hl := not_not.mp hl
          rw [if_pos hl, if_neg (show ¬ (ml - row - args.header.height - args.skipAfter).toNat = 0 by omega)]
          obtain ⟨h3, h3'⟩ := rowMask_after s2 fs (fun k hkk => hmem k2 k (filterKeys_sub _ _ _ _ hfs k hkk))
            args.strategy (args.header.height + row + args.skipAfter).toNat
            (ml - row - args.header.height - args.skipAfter).toNat (by omega)
          generalize hoff : (args.header.height + row + args.skipAfter).toNat = off at h3 h3' ⊢
          generalize hlen' : (ml - row - args.header.height - args.skipAfter).toNat = len at h3 h3' ⊢
          have elen : (len : Int) = ml - row - args.header.height - args.skipAfter := by omega
          rw [clashIn_append]
          have start : ∀ x, (match rowMask env c2 fs args.strategy off len with
              | .error e => (.error e : Py (Table A))
              | .ok (cols, mask) =>
                match onColumns (fetchWith env off len mask) cols (sortedKeys cols) with
                | .error e => .error e
                | .ok (_, fetched) =>
                  match applyDtypes lib names (fetched.map lib.ofFetched) args.dtypes with
                  | .error e => .error e
                  | .ok arrays => makeTable lib names arrays) = x →
              readColumns env lib search reMatch args cols = x := by
            intro x hx
            refine start0 x ?_
            rw [rowMask_toNat env _ _ _ _ (by omega)]
            simp only [fetchWith_toNat env (args.header.height + row + args.skipAfter) _
              (show ml - row - args.header.height - args.skipAfter ≠ 0 by omega)]
            rw [← elen, hoff]
            exact hx
          cases hc3 : clashIn o sheet d2 (fs.map fun k => ⟨k, off, len, none⟩) with
          | true =>
            rw [Bool.true_or, if_pos rfl]
            exact start _ (by rw [h3 hc3])
          | false =>
          replace h3 := h3' hc3
          rw [Bool.false_or]
          cases hm : maskForV (sheetView env o sheet) fs args.strategy off len with
          | error e =>
            rw [hm] at h3
            simp only at h3
            simp only [clashIn, Bool.false_eq_true, if_false]
            exact start _ (by rw [h3])
          | ok m =>
            rw [hm] at h3
            obtain ⟨hsr, c3, e3, s3, k3⟩ := h3
            have k3 := k3.trans k2
            simp only
            obtain ⟨h4, h4'⟩ := onColumns_after (fetch_givesH env o off len m hsr) (fun _ => rfl) (sortedKeys cols) s3
              (hmem k3)
            cases hc4 : clashIn o sheet ((fs.map fun k => (⟨k, off, len, none⟩ : Reading)).reverse ++ d2)
                ((sortedKeys cols).map fun k => ⟨k, off, len, m⟩) with
            | true =>
              rw [if_pos rfl]
              exact start _ (by rw [e3]; simp only; rw [hk k3, h4 hc4])
            | false =>
              obtain ⟨c4, e4, s4, k4⟩ := h4' hc4
              simp only [Bool.false_eq_true, if_false]
              refine start _ ?_
              rw [e3]
              simp only
              rw [hk k3, e4]
              simp only [List.map_map]
              rfl

/-! ## The columns of a sheet before any reading -/

theorem runNumbers_ge {α : Type} : ∀ (rows : List (Option (Nat × α))) (n : Nat) (prev) (j : Nat) (r),
    (j, r) ∈ (runNumbers n prev rows).zip rows →
    n ≤ j ∧ (j = n → prev = some (r.map (·.1)))
  | [], n, prev, j, r, h => by simp at h
  | x :: rows, n, prev, j, r, h => by
    rw [runNumbers, List.zip_cons_cons] at h
    rcases List.mem_cons.mp h with h | h
    · injection h with h1 h2
      subst h2
      split at h1
      · rename_i hp; exact ⟨by omega, fun _ => hp⟩
      · exact ⟨by omega, fun _ => by omega⟩
    · have ih := runNumbers_ge rows _ _ j r h
      split at ih
      · rename_i hp
        refine ⟨ih.1, fun e => ?_⟩
        rw [hp]
        exact ih.2 e
      · exact ⟨by omega, fun _ => by omega⟩

theorem runNumbers_tag {α : Type} : ∀ (rows : List (Option (Nat × α))) (n : Nat) (prev) (j : Nat) (r r'),
    (j, r) ∈ (runNumbers n prev rows).zip rows → (j, r') ∈ (runNumbers n prev rows).zip rows →
    r.map (·.1) = r'.map (·.1)
  | [], n, prev, j, r, r', h, _ => by simp at h
  | x :: rows, n, prev, j, r, r', h, h' => by
    rw [runNumbers, List.zip_cons_cons] at h h'
    generalize (if prev = some (x.map (·.1)) then n else n + 1) = m at h h'
    rcases List.mem_cons.mp h with h | h <;> rcases List.mem_cons.mp h' with h' | h'
    · injection h with _ h; injection h' with _ h'
      rw [h, h']
    · injection h with h1 h2
      subst h1; subst h2
      have := (runNumbers_ge rows _ _ _ _ h').2 rfl
      injection this
    · injection h' with h1 h2
      subst h1; subst h2
      have := (runNumbers_ge rows _ _ _ _ h).2 rfl
      injection this with this
      exact this.symm
    · exact runNumbers_tag rows _ _ j r r' h h'

theorem mem_sharedRuns {α : Type} {column : List (Option (Nat × α))} {j : Nat} :
    j ∈ sharedRuns column ↔ ∃ v, (j, some (0x11, v)) ∈ (runNumbers 0 none column).zip column := by
  unfold sharedRuns
  rw [List.reduceOption_mem_iff]
  generalize runNumbers 0 none column = ns
  induction ns generalizing column with
  | nil => simp
  | cons n ns ih =>
    cases column with
    | nil => simp
    | cons r column =>
      rw [List.zipWith_cons_cons, List.zip_cons_cons, List.mem_cons, ih]
      constructor
      · rintro (h | ⟨v, h⟩)
        · split at h
          · rename_i hr
            injection h with h
            subst h
            cases r with
            | none => simp at hr
            | some r =>
              obtain ⟨x, v⟩ := r
              simp only [Option.map_some, Option.some.injEq] at hr
              subst hr
              exact ⟨v, by simp⟩
          · simp at h
        · exact ⟨v, by simp [h]⟩
      · rintro ⟨v, h⟩
        rcases List.mem_cons.mp h with h | h
        · injection h with h1 h2
          subst h1; subst h2
          left; simp
        · exact .inr ⟨v, h⟩

theorem makeChunk_raw {env : Env} {b : Bool} {shared : List (Option Str)} {vals : List Raw} {c : Chunk}
    (h : makeChunk env b shared 0x11 vals = .ok c) : ¬ c.Resolved := by
  unfold makeChunk at h
  rw [if_pos (by rfl)] at h
  have hb : hasBit 0x11 REPR_SHARED = true := rfl
  rw [hb] at h
  cases b with
  | true =>
    simp only [if_true, Chunk.xlsbStrings] at h
    split at h
    · injection h with h; subst h; intro hr; exact hr _ rfl
    · simp at h
  | false =>
    simp only [Bool.false_eq_true, if_false, Chunk.xlsxStrings, if_true] at h
    split at h
    · injection h with h; subst h; intro hr; exact hr _ rfl
    · simp at h

theorem stretch_size {env : Env} {b : Bool} {shared : List (Option Str)} {gs : List Stretch} {cs : List Chunk}
    (h : List.Forall₂ (Stretch.Is env b shared) gs cs)
    (hv : ∀ x v, some (x, v) ∈ gs.flatMap Stretch.rows → (rawValue env b shared x v).isSome) :
    ∀ c ∈ cs, c.size ≠ 0 := by
  induction h with
  | nil => simp
  | @cons g c gs cs hg _ ih =>
    have ih := ih fun x v hm => hv x v (by rw [List.flatMap_cons]; exact List.mem_append_right _ hm)
    intro d hd
    rcases List.mem_cons.mp hd with rfl | hd
    · cases g with
      | gap n =>
        obtain ⟨hn, rfl⟩ := hg
        simp only [Chunk.nulls]
        omega
      | run x vals =>
        obtain ⟨hne, hm⟩ := hg
        obtain ⟨c', h1, h2⟩ := run_holds (env := env) (b := b) (shared := shared) (x := x) hne (fun v hvv => hv x v (by
          rw [List.flatMap_cons]
          exact List.mem_append_left _ (List.mem_map_of_mem (f := fun v => some (x, v)) hvv)))
        rw [hm] at h1
        injection h1 with h1
        subst h1
        rw [h2.2]
        simpa using hne
    · exact ih d hd

/-- Adding valid cells to a fresh column. -/
theorem built_after (env : Env) (b : Bool) (shared : List (Option Str)) (o : ConcatOpts) (cs : List Cell)
    (hv : ValidCells env b shared cs) (hne : cs ≠ []) :
    ∃ s, Series.addAll env cs (freshSeries shared b o) = .ok s ∧
      s.After env o ⟨heldRows env b shared (rawColumn cs), sharedRuns (rawColumn cs)⟩ [] ∧
      s.len = (height cs : Int) - (match cs.head? with | none => -1 | some c => (c.row : Int)) := by
  obtain ⟨s, s', h1, h2, h3, h4, h5⟩ := built_column env b shared o cs hv
  obtain ⟨i1, k1⟩ := addAll_inv cs (fresh_inv env shared b o) h1
  rw [List.nil_append] at i1
  obtain ⟨⟨gs, g1, g2, gch, _⟩, g3, _⟩ := flush_inv i1 h2
  have hb : s.binary = b := k1.binary
  have hsh : s.shared = shared := k1.shared
  have hop : s.opts = o := k1.opts
  rw [hb, hsh] at g1
  have hval : ∀ x v, some (x, v) ∈ gs.flatMap Stretch.rows → (rawValue env b shared x v).isSome :=
    fun x v hm => rawColumn_valid hv (by rw [← g2]; exact hm)
  have hT := stretches_tagged g1 hval gch 0 none (by simp)
    (P := RawIs (HCol.raw ⟨heldRows env b shared (rawColumn cs), sharedRuns (rawColumn cs)⟩ [])) (fun _ _ => .inl rfl)
    (fun j x v vals c hm hz => by
      right
      rw [g2] at hz
      unfold HCol.raw
      simp only [List.not_mem_nil, false_implies, implies_true, and_true]
      by_cases hx : x = 0x11
      · subst hx
        exact ⟨fun _ => mem_sharedRuns.mpr ⟨v, hz⟩, fun _ => makeChunk_raw hm⟩
      · refine ⟨fun hr => ?_, fun hj => ?_⟩
        · obtain ⟨y, hy⟩ := Option.isSome_iff_exists.mp (hval x v (by rw [g2]; exact (List.of_mem_zip hz).2))
          exact absurd (makeChunk_resolved hm (rawValue_tag hy hx)) hr
        · obtain ⟨v', hv'⟩ := mem_sharedRuns.mp hj
          have := runNumbers_tag _ _ _ _ _ _ hz hv'
          simp only [Option.map_some, Option.some.injEq] at this
          exact absurd this hx)
  rw [g2] at hT
  refine ⟨s, h1, ⟨⟨s', h2, hT.mono (by omega), fun hc => hne (h5.mp hc), stretch_size g1 hval, g3,
    h4.trans hop.symm⟩, hop⟩, ?_⟩
  unfold Series.len
  rw [i1.eRow, i1.sRow]
  cases cs with
  | nil => exact absurd rfl hne
  | cons c cs => simp only [List.head?_cons]; omega

theorem Collected.after {env : Env} {b : Bool} {shared : List (Option Str)} {o : ConcatOpts} {cols : Cols}
    {cells : List Cell} (h : Collected env (freshSeries shared b o) cols cells) (hv : ValidCells env b shared cells) :
    ColsAfter env o cols (cellCols env b shared cells) [] ∧ ∀ q ∈ cols, q.2.len = spanOf cells q.1 := by
  have key : ∀ q ∈ cols, q.2.After env o (cellCols env b shared cells q.1) [] ∧ q.2.len = spanOf cells q.1 := by
    intro q hq
    have hne : colCells cells q.1 ≠ [] := by
      obtain ⟨c, hc, he⟩ := (h.keys q.1).mp (List.mem_map_of_mem hq)
      intro h0
      have : c ∈ colCells cells q.1 := List.mem_filter.mpr ⟨hc, by simp [he]⟩
      rw [h0] at this
      simp at this
    obtain ⟨s, h1, h2, h3⟩ := built_after env b shared o _ (colCells_valid hv q.1) hne
    have := h.each q hq
    rw [h1] at this
    injection this with this
    subst this
    refine ⟨h2, ?_⟩
    rw [h3]
    unfold spanOf
    cases hc : colCells cells q.1 with
    | nil => exact absurd hc hne
    | cons c cs => rfl
  exact ⟨⟨h.nodup, fun q hq => (key q hq).1⟩, fun q hq => (key q hq).2⟩

theorem maxSpan_pos {cells : List Cell} (hne : cells ≠ []) : 0 < maxSpan cells := by
  obtain ⟨c, hc⟩ := List.exists_mem_of_ne_nil _ hne
  have hk : c.col ∈ columnsOf cells := by
    rw [columnsOf, List.mem_insertionSort, List.mem_dedup]
    exact List.mem_map_of_mem hc
  have h1 := spanOf_pos hk
  have h2 := (foldr_max_spec (spanOf cells) (columnsOf cells)).1 _ hk
  unfold maxSpan
  omega

theorem DataOrEnd.mono {D : Type} {env : Env} {search : Str → Option (Str → Bool)} {reMatch : Str → Str → Py Bool}
    {args : ReadArgs D} {grid : Int → View} {order keys : List Int} {span : Int} {p q : Int → Nat → Prop}
    (h : DataOrEnd env search reMatch args grid order keys span p) (hpq : ∀ k ∈ keys, ∀ off, p k off → q k off) :
    DataOrEnd env search reMatch args grid order keys span q := by
  intro row hr
  refine (h row hr).imp id fun h names fs hn hf => ?_
  obtain ⟨k, hk, hp⟩ := h names fs hn hf
  refine ⟨k, hk, hpq k ?_ _ hp⟩
  split at hk
  · exact hk
  · exact filterKeys_sub _ _ _ _ hf k hk

/-- `read` on valid cells, exceptions included. -/
theorem readCells_history {A D : Type} (env : Env) (b : Bool) (shared : List (Option Str)) (o : ConcatOpts)
    (lib : Lib A D) (search : Str → Option (Str → Bool))
    (reMatch : Str → Str → Py Bool) (args : ReadArgs D) (cells : List Cell) (hne : cells ≠ [])
    (hv : ValidCells env b shared cells) (hs : 0 < args.lookupSize) (hh : 0 ≤ args.header.height)
    (hlen : DataOrEnd env search reMatch args (heldView env o b shared cells) (firstSeen cells) (columnsOf cells)
      (maxSpan cells) fun k off => height (colCells cells k) ≤ off) :
    readCells env lib search reMatch args (freshSeries shared b o) cells =
      if clashIn o (cellCols env b shared cells) [] (sheetReadings env search reMatch args (heldView env o b shared cells)
          (firstSeen cells) (columnsOf cells) (maxSpan cells)) = true then .error .arrowNotImplemented
      else sheetResult env lib search reMatch args (heldView env o b shared cells) (firstSeen cells) (columnsOf cells)
        (maxSpan cells) := by
  obtain ⟨cols, e, hc⟩ := collect_ok env b shared o cells hv
  obtain ⟨hst, hl⟩ := hc.after hv
  unfold readCells
  rw [e]
  simp only
  rw [← hc.order, ← hc.sorted] at hlen
  rw [← hc.order, ← hc.sorted]
  refine readColumns_after hst lib search reMatch args args.lookupSize.toNat (by omega) (by omega) (hc.maxLen hl hne) hh
    (maxSpan_pos hne) (hlen.mono fun k _ off h => ?_)
  simp only [cellCols, heldRows, List.length_zipWith, runNumbers_length, rawColumn, List.length_map, List.length_range]
  omega

theorem rawValue_shared {env : Env} {b : Bool} {shared : List (Option Str)} {v : Raw} {n : Int} :
    rawValue env b shared 0x11 v ≠ some (some (.ts n)) := by
  unfold rawValue
  cases b with
  | true =>
    simp only [if_true]
    cases v with
    | text s => simp [xlsbValue]
    | bytes bs =>
      unfold xlsbValue
      simp only
      repeat' split
      all_goals simp_all
  | false =>
    simp only [Bool.false_eq_true, if_false]
    cases v with
    | bytes bs => simp [xlsxValue]
    | text s =>
      simp only [xlsxValue]
      rw [if_neg (by decide), if_pos trivial]
      cases env.pyInt s with
      | none => simp
      | some a =>
        simp only [Option.bind_some]
        split
        · cases shared[a]? with
          | none => simp
          | some x => cases x <;> simp
        · simp

theorem shared_not_ts {env : Env} {b : Bool} {shared : List (Option Str)} {l : List (Option (Nat × Raw))} {j : Nat}
    {n : Int} (h : some (j, some (.ts n)) ∈ heldRows env b shared l) : j ∉ sharedRuns l := by
  intro hj
  obtain ⟨v', hv'⟩ := mem_sharedRuns.mp hj
  unfold heldRows at h
  rw [← List.map_uncurry_zip_eq_zipWith] at h
  obtain ⟨⟨m, r⟩, hm, e⟩ := List.mem_map.mp h
  cases r with
  | none => simp [Function.uncurry] at e
  | some c =>
    obtain ⟨x, v⟩ := c
    simp only [Function.uncurry, Option.map_some, Option.some.injEq, Prod.mk.injEq] at e
    obtain ⟨rfl, e⟩ := e
    have ht := runNumbers_tag _ _ _ _ _ _ hm hv'
    simp only [Option.map_some, Option.some.injEq] at ht
    subst ht
    cases hr : rawValue env b shared 0x11 v with
    | none => rw [hr] at e; simp at e
    | some y =>
      rw [hr, Option.join_some] at e
      subst e
      exact rawValue_shared hr

/-- A reading of a single row does not fail. -/
theorem clash_one_row {env : Env} {b : Bool} {shared : List (Option Str)} {o : ConcatOpts} {cells : List Cell} {k : Int}
    {done : List Reading} {row : Nat} : (cellCols env b shared cells k).clash o done ⟨k, row, 1, none⟩ = false := by
  rw [Bool.eq_false_iff]
  intro hc
  unfold HCol.clash at hc
  simp only [pickRows, window, List.range_one, List.map_cons, List.map_nil, heldCells, List.any_cons, List.any_nil,
    Bool.or_false, Bool.and_eq_true, Nat.add_zero] at hc
  obtain ⟨⟨_, hts⟩, hr⟩ := hc
  cases hx : cellAt (cellCols env b shared cells k).rows row with
  | none => rw [hx] at hr; simp at hr
  | some x =>
    obtain ⟨j, v⟩ := x
    rw [hx] at hr hts
    simp only [Option.bind_some, Option.any_some, Bool.and_eq_true] at hr hts
    cases v with
    | none => simp [isTs] at hts
    | some v =>
      cases v with
      | ts n =>
        have hm : some (j, some (.ts n)) ∈ heldRows env b shared (rawColumn (colCells cells k)) := by
          unfold cellAt at hx
          cases hl : (cellCols env b shared cells k).rows[row]? with
          | none => rw [hl] at hx; simp at hx
          | some y =>
            rw [hl] at hx
            simp only [Option.join_some] at hx
            subst hx
            exact List.mem_of_getElem? hl
        exact shared_not_ts hm (by simpa [cellCols] using hr.1)
      | _ => simp [isTs] at hts

theorem clashIn_one_row {env : Env} {b : Bool} {shared : List (Option Str)} {o : ConcatOpts} {cells : List Cell}
    {row : Nat} : ∀ (ks : List Int) (done : List Reading),
    clashIn o (cellCols env b shared cells) done (ks.map fun k => ⟨k, row, 1, none⟩) = false
  | [], _ => rfl
  | k :: ks, done => by
    rw [List.map_cons, clashIn, clash_one_row, clashIn_one_row ks]
    rfl

end Rxls
