import Verif.Lemmas.ReadCols
import Verif.Lemmas.NegOffset

/-! # The table -/

namespace Rxls

theorem height_ge {cs : List Cell} {c : Cell} (h : c ∈ cs) : c.row + 1 ≤ height cs := by
  induction cs with
  | nil => simp at h
  | cons d cs ih =>
    unfold height at ih ⊢
    simp only [List.map_cons, List.foldr_cons]
    rcases List.mem_cons.mp h with rfl | h
    · omega
    · have := ih h; omega

theorem spanOf_pos {cells : List Cell} {k : Int} (h : k ∈ columnsOf cells) : 1 ≤ spanOf cells k := by
  rw [columnsOf, List.mem_insertionSort, List.mem_dedup, List.mem_map] at h
  obtain ⟨c, hc, rfl⟩ := h
  unfold spanOf
  cases hcc : colCells cells c.col with
  | nil =>
    have : c ∈ colCells cells c.col := List.mem_filter.mpr ⟨hc, by simp⟩
    rw [hcc] at this; simp at this
  | cons d ds =>
    have : d.row + 1 ≤ height (d :: ds) := height_ge (by simp)
    simp only
    omega

theorem foldr_max_spec (f : Int → Int) : ∀ (l : List Int), (∀ k ∈ l, f k ≤ (l.map f).foldr max 0) ∧
    ((∃ k ∈ l, (l.map f).foldr max 0 = f k) ∨ (l.map f).foldr max 0 = 0)
  | [] => ⟨by simp, .inr rfl⟩
  | k :: l => by
    obtain ⟨h1, h2⟩ := foldr_max_spec f l
    simp only [List.map_cons, List.foldr_cons]
    refine ⟨?_, ?_⟩
    · intro j hj
      rcases List.mem_cons.mp hj with rfl | hj
      · omega
      · have := h1 j hj; omega
    · rcases le_total (f k) ((l.map f).foldr max 0) with h | h
      · rw [max_eq_right h]
        rcases h2 with ⟨j, hj, e⟩ | e
        · exact .inl ⟨j, by simp [hj], e⟩
        · exact .inr e
      · rw [max_eq_left h]; exact .inl ⟨k, by simp, rfl⟩

theorem foldl_max_spec : ∀ (l : Cols) (m : Int), m ≤ l.foldl (fun m q => max m q.2.len) m ∧
    (∀ q ∈ l, q.2.len ≤ l.foldl (fun m q => max m q.2.len) m) ∧
    (l.foldl (fun m q => max m q.2.len) m = m ∨ ∃ q ∈ l, l.foldl (fun m q => max m q.2.len) m = q.2.len)
  | [], m => ⟨le_refl _, by simp, .inl rfl⟩
  | q :: l, m => by
    obtain ⟨h1, h2, h3⟩ := foldl_max_spec l (max m q.2.len)
    simp only [List.foldl_cons]
    refine ⟨by omega, ?_, ?_⟩
    · intro x hx
      rcases List.mem_cons.mp hx with rfl | hx
      · omega
      · exact h2 x hx
    · rcases h3 with h3 | ⟨x, hx, h3⟩
      · rw [h3]
        rcases le_total m q.2.len with h | h
        · right; exact ⟨q, by simp, by omega⟩
        · left; omega
      · right; exact ⟨x, by simp [hx], h3⟩

theorem Collected.mem_columns {env : Env} {fresh : Series} {cols : Cols} {cells : List Cell}
    (h : Collected env fresh cols cells) (k : Int) : k ∈ cols.map (·.1) ↔ k ∈ columnsOf cells := by
  rw [h.keys, columnsOf, List.mem_insertionSort, List.mem_dedup, List.mem_map]

theorem Collected.maxLen {env : Env} {fresh : Series} {cols : Cols} {cells : List Cell}
    (h : Collected env fresh cols cells) (hl : ∀ q ∈ cols, q.2.len = spanOf cells q.1) (hne : cells ≠ []) :
    Rxls.maxLen cols = .ok (maxSpan cells) := by
  cases hc : cols with
  | nil =>
    obtain ⟨c, cs, rfl⟩ := List.exists_cons_of_ne_nil hne
    have := (h.keys c.col).mpr ⟨c, by simp, rfl⟩
    rw [hc] at this
    simp at this
  | cons q cols' =>
    have hk : ∀ x ∈ q :: cols', x.1 ∈ columnsOf cells := by
      intro x hx
      rw [← h.mem_columns, hc]
      exact List.mem_map_of_mem hx
    rw [hc] at hl
    rw [Rxls.maxLen]
    obtain ⟨h1, h2, h3⟩ := foldl_max_spec cols' q.2.len
    obtain ⟨g1, g2⟩ := foldr_max_spec (spanOf cells) (columnsOf cells)
    congr 1
    unfold maxSpan
    generalize hM : cols'.foldl (fun m q => max m q.2.len) q.2.len = M at h1 h2 h3
    generalize hN : ((columnsOf cells).map (spanOf cells)).foldr max 0 = N at g1 g2
    have hall : ∀ x ∈ q :: cols', x.2.len ≤ M := by
      intro x hx
      rcases List.mem_cons.mp hx with rfl | hx
      · exact h1
      · exact h2 x hx
    have hex : ∃ x ∈ q :: cols', M = x.2.len := by
      rcases h3 with h3 | ⟨x, hx, h3⟩
      · exact ⟨q, by simp, h3⟩
      · exact ⟨x, by simp [hx], h3⟩
    apply le_antisymm
    · obtain ⟨x, hx, e⟩ := hex
      rw [e, hl x hx]
      exact g1 _ (hk x hx)
    · rcases g2 with ⟨k, hkm, e⟩ | e
      · rw [← h.mem_columns, hc] at hkm
        obtain ⟨x, hx, rfl⟩ := List.mem_map.mp hkm
        rw [e, ← hl x hx]
        exact hall x hx
      · have := hl q (by simp)
        have := spanOf_pos (hk q (by simp))
        omega

/-! ## Lookup -/

theorem resolved_isSome (env : Env) (p : ConcatOpts) (cells : List (Option Val)) :
    (resolved env p cells).map Option.isSome = cells.map Option.isSome := by
  have h : ∀ f : Val → Val, (cells.map (Option.map f)).map Option.isSome = cells.map Option.isSome := by
    intro f
    rw [List.map_map]
    apply List.map_congr_left
    intro v _
    cases v <;> rfl
  unfold resolved
  split <;> split <;> first | rfl | exact h _

theorem headTexts_isSome (env : Env) (p : ConcatOpts) (cells : List (Option Val)) :
    (headTexts env p cells).map Option.isSome = cells.map Option.isSome := by
  have h : (headTexts env p cells).map Option.isSome = (resolved env p cells).map Option.isSome := by
    simp only [headTexts, fetched, materialise, List.map_map]
    apply List.map_congr_left
    intro v _
    cases v <;> rfl
  rw [h]
  exact resolved_isSome env p cells

theorem findIdx_map_eq {α β : Type} (p : α → Bool) (q : β → Bool) (l : List α) (r : List β) (h : l.map p = r.map q) :
    l.findIdx? p = r.findIdx? q := by
  induction l generalizing r with
  | nil => cases r <;> simp_all
  | cons a l ih =>
    cases r with
    | nil => simp at h
    | cons b r =>
      rw [List.map_cons, List.map_cons] at h
      injection h with h1 h2
      rw [List.findIdx?_cons, List.findIdx?_cons, h1, ih r h2]

/-- A row number as returned by `__find_header`. -/
def rowOr (r : Option Nat) : Int :=
  match r with
  | some i => i
  | none => -1

theorem findPattern_stands {env : Env} {p : ConcatOpts} {grid} (f : Str → Bool) (size : Nat) (hs : 0 < size) :
    ∀ (ks : List Int) {cols : Cols}, ColsStand env p cols grid → (∀ k ∈ ks, k ∈ cols.map (·.1)) →
    ∃ cols', findPattern env f size cols ks = .ok (cols',
        rowOr (ks.findSome? fun k => (arrTexts env (grid k 0 size none)).findIdx? (Option.any f))) ∧
      ColsStand env p cols' grid ∧ cols'.map (·.1) = cols.map (·.1)
  | [], cols, h, _ => ⟨cols, rfl, h, rfl⟩
  | k :: ks, cols, h, hk => by
    obtain ⟨c1, e1, h1, k1⟩ := onColumn_stands h (textsOf_gives env p 0 size hs) (hk k (by simp))
    rw [findPattern]
    rw [Nat.cast_zero] at e1
    rw [e1]
    simp only
    cases hi : (arrTexts env (grid k 0 size none)).findIdx? (Option.any f) with
    | none =>
      obtain ⟨c2, e2, h2, k2⟩ := findPattern_stands f size hs ks h1 (fun x hx => by rw [k1]; exact hk x (by simp [hx]))
      refine ⟨c2, ?_, h2, k2.trans k1⟩
      simp only [e2, List.findSome?_cons, hi]
    | some i =>
      refine ⟨c1, ?_, h1, k1⟩
      simp only [List.findSome?_cons, hi]
      rfl

theorem findHeader_stands {env : Env} {p : ConcatOpts} {cols : Cols} {grid} (h : ColsStand env p cols grid)
    (search : Str → Option (Str → Bool)) (size : Nat) (hs : 0 < size) (lk : Lookup) :
    match lookupRowV env grid (cols.map (·.1)) size search lk with
    | .error e => findHeader env search cols size lk = .error e
    | .ok r => ∃ cols', findHeader env search cols size lk = .ok (cols', rowOr r) ∧
        ColsStand env p cols' grid ∧ cols'.map (·.1) = cols.map (·.1) := by
  cases lk with
  | none => exact ⟨cols, rfl, h, rfl⟩
  | column k =>
    unfold lookupRowV findHeader
    simp only
    by_cases hk : k ∈ cols.map (·.1)
    · rw [if_pos hk]
      obtain ⟨c1, e1, h1, k1⟩ := onColumn_stands h (textsOf_gives env p 0 size hs) hk
      rw [Nat.cast_zero] at e1
      simp only
      rw [e1]
      refine ⟨c1, ?_, h1, k1⟩
      simp only
      rw [findIdx_map_eq Option.isSome Option.isSome _ (grid k 0 size none).vals (by
        rw [arrTexts, List.map_map]
        apply List.map_congr_left
        intro v _
        cases v <;> rfl)]
      cases (grid k 0 size none).vals.findIdx? Option.isSome <;> rfl
    · rw [if_neg hk]
      simp only
      have : (cols.find? fun q => q.1 = k) = none := by
        rw [List.find?_eq_none]
        intro q hq hqk
        exact hk (List.mem_map.mpr ⟨q, hq, by simpa using hqk⟩)
      unfold onColumn
      rw [this]
  | pattern s =>
    unfold lookupRowV findHeader
    simp only
    cases search s with
    | none => rfl
    | some f => exact findPattern_stands f size hs _ h (fun k hk => hk)

/-! ## Names -/

theorem headerOf_stands {env : Env} {p : ConcatOpts} {cols : Cols} {grid} (h : ColsStand env p cols grid) (row : Nat)
    (a : HeaderArg) (ha : 0 ≤ a.height) :
    match namesForV env grid (sortedKeys cols) row a with
    | .error e => headerOf env cols row a = .error e
    | .ok names => ∃ cols', headerOf env cols row a = .ok (cols', a.height, names) ∧
        ColsStand env p cols' grid ∧ cols'.map (·.1) = cols.map (·.1) := by
  have hlen : (sortedKeys cols).length = cols.length := by
    rw [sortedKeys, (List.perm_insertionSort _ _).length_eq, List.length_map]
  cases a with
  | names l =>
    unfold namesForV headerOf
    simp only [hlen]
    by_cases hl : l.length ≠ cols.length
    · simp only [if_pos hl]
    · simp only [if_neg hl]; exact ⟨cols, rfl, h, rfl⟩
  | rows n =>
    unfold namesForV headerOf
    by_cases hn : n = 0
    · subst hn
      simp only [if_true, ne_eq, not_true_eq_false, if_false, hlen]
      exact ⟨cols, rfl, h, rfl⟩
    · simp only [hn, if_false, ne_eq, not_false_eq_true, if_true, hlen]
      have h0 : 0 ≤ n := ha
      obtain ⟨c, e, h1, h2⟩ := makeHeader_stands h row n.toNat (by omega)
      rw [show ((n.toNat : Nat) : Int) = n by omega] at e
      rw [e]
      exact ⟨c, rfl, h1, h2⟩

/-! ## Filters -/

theorem keysWhere_sub (test : Str → Py Bool) : ∀ (l : List (Str × Int)) {ks : List Int}, keysWhere test l = .ok ks →
    ∀ k ∈ ks, ∃ n, (n, k) ∈ l
  | [], ks, e, k, hk => by rw [keysWhere] at e; injection e with e; subst e; simp at hk
  | (n, j) :: l, ks, e, k, hk => by
    rw [keysWhere] at e
    cases ht : test n with
    | error x => rw [ht] at e; simp at e
    | ok b =>
      rw [ht] at e
      simp only at e
      cases hr : keysWhere test l with
      | error x => rw [hr] at e; simp at e
      | ok r =>
        rw [hr] at e
        injection e with e
        subst e
        have ih := keysWhere_sub test l hr
        cases b with
        | false =>
          obtain ⟨m, hm⟩ := ih k hk
          exact ⟨m, by simp [hm]⟩
        | true =>
          rcases List.mem_cons.mp hk with rfl | hk
          · exact ⟨n, by simp⟩
          · obtain ⟨m, hm⟩ := ih k hk
            exact ⟨m, by simp [hm]⟩

theorem filterKeys_sub (reMatch : Str → Str → Py Bool) (names : List Str) (keys : List Int) (f : RowFilters)
    {ks : List Int} (e : filterKeys reMatch names keys f = .ok ks) : ∀ k ∈ ks, k ∈ keys := by
  have hz : ∀ test, keysWhere test (names.zip keys) = .ok ks → ∀ k ∈ ks, k ∈ keys := by
    intro test h k hk
    obtain ⟨n, hn⟩ := keysWhere_sub test _ h k hk
    exact (List.of_mem_zip hn).2
  cases f with
  | none => rw [filterKeys] at e; injection e with e; subst e; simp
  | pattern s =>
    rw [filterKeys] at e
    split at e
    · injection e with e; subst e; simp
    · exact hz _ e
  | positions l =>
    rw [filterKeys] at e
    injection e with e
    subst e
    intro k hk
    obtain ⟨q, hq, rfl⟩ := List.mem_map.mp hk
    exact List.fst_mem_of_mem_zipIdx (List.mem_filter.mp hq).1
  | patterns l => exact hz _ e
  | bad => rw [filterKeys] at e; simp at e

/-! ## The whole -/

theorem rowMask_stands {env : Env} {p : ConcatOpts} {cols : Cols} {grid} (h : ColsStand env p cols grid) (fs : List Int)
    (hfs : ∀ k ∈ fs, k ∈ cols.map (·.1)) (st : Strategy) (off len : Nat) (hl : 0 < len) :
    match maskForV grid fs st off len with
    | .error e => rowMask env cols fs st off len = .error e
    | .ok m => SomeRow len m ∧ ∃ cols', rowMask env cols fs st off len = .ok (cols', m) ∧
        ColsStand env p cols' grid ∧ cols'.map (·.1) = cols.map (·.1) := by
  unfold maskForV rowMask
  by_cases hf : fs.isEmpty
  · simp only [if_pos hf]
    exact ⟨hl, cols, rfl, h, rfl⟩
  · simp only [if_neg hf]
    obtain ⟨c1, e1, h1, k1⟩ := onColumns_stands (presence_gives env p off len hl) fs h hfs
    rw [e1]
    simp only
    cases hc : combineFilters st (fs.map fun k => (grid k off len none).vals.map present) with
    | error e => rfl
    | ok m =>
      simp only
      by_cases ht : trueCount m = 0
      · simp only [if_pos ht]
      · simp only [if_neg ht]
        exact ⟨ht, c1, rfl, h1, k1⟩

/-- `read` on columns that stand for a sheet. -/
theorem readColumns_stands {A D : Type} {env : Env} {p : ConcatOpts} {cols : Cols} {grid} (h : ColsStand env p cols grid)
    (lib : Lib A D) (search : Str → Option (Str → Bool)) (reMatch : Str → Str → Py Bool) (args : ReadArgs D)
    (size : Nat) (hs : 0 < size) (hsz : args.lookupSize = size) {ml : Int} (hml : maxLen cols = .ok ml) {row : Nat}
    (hrow : lookupRowV env grid (cols.map (·.1)) size search args.lookup = .ok (some row))
    (hh : 0 ≤ args.header.height) {names : List Str}
    (hnames : namesForV env grid (sortedKeys cols) row args.header = .ok names)
    {fs : List Int}
    (hfs : filterKeys reMatch names (sortedKeys cols) args.filters = .ok fs)
    (hlen : 0 < ml - row - args.header.height - args.skipAfter)
    {m : Option (List Bool)}
    (hm : maskForV grid fs args.strategy (args.header.height + row + args.skipAfter).toNat
      (ml - row - args.header.height - args.skipAfter).toNat = .ok m) :
    readColumns env lib search reMatch args cols =
      tableOfV lib grid (sortedKeys cols) names args.dtypes
        (args.header.height + row + args.skipAfter).toNat (ml - row - args.header.height - args.skipAfter).toNat m := by
  have hk : ∀ {c : Cols}, c.map (·.1) = cols.map (·.1) → sortedKeys c = sortedKeys cols := by
    intro c hc; unfold sortedKeys; rw [hc]
  have hmem : ∀ {c : Cols}, c.map (·.1) = cols.map (·.1) → ∀ k ∈ sortedKeys cols, k ∈ c.map (·.1) := by
    intro c hc k hkk; rw [hc]; exact (List.perm_insertionSort _ _).mem_iff.mp hkk
  unfold readColumns
  rw [hml]
  simp only
  have h1 := findHeader_stands h search size hs args.lookup
  rw [hrow] at h1
  obtain ⟨c1, e1, s1, k1⟩ := h1
  rw [hsz, e1]
  have hne : ¬ (rowOr (some row) = -1) := by simp only [rowOr]; omega
  simp only [if_neg hne]
  have h2 := headerOf_stands s1 row args.header hh
  rw [hk k1, hnames] at h2
  obtain ⟨c2, e2, s2, k2⟩ := h2
  have k2 := k2.trans k1
  simp only [rowOr]
  rw [e2]
  simp only
  rw [hk k2, hfs]
  simp only
  have h3 := rowMask_stands s2 fs (fun k hkk => hmem k2 k (filterKeys_sub _ _ _ _ hfs k hkk)) args.strategy
    (args.header.height + row + args.skipAfter).toNat (ml - row - args.header.height - args.skipAfter).toNat (by omega)
  rw [hm] at h3
  obtain ⟨hsr, c3, e3, s3, k3⟩ := h3
  have k3 := k3.trans k2
  rw [show (((ml - row - args.header.height - args.skipAfter).toNat : Nat) : Int) =
    ml - row - args.header.height - args.skipAfter by omega] at e3
  rw [rowMask_toNat env _ _ _ _ (show ml - row - args.header.height - args.skipAfter ≠ 0 by omega), e3]
  simp only
  obtain ⟨c4, e4, s4, k4⟩ := onColumns_stands (fetch_gives env p (args.header.height + row + args.skipAfter).toNat
    (ml - row - args.header.height - args.skipAfter).toNat m hsr) (sortedKeys cols) s3 (hmem k3)
  rw [show (((ml - row - args.header.height - args.skipAfter).toNat : Nat) : Int) =
    ml - row - args.header.height - args.skipAfter by omega] at e4
  rw [fetchWith_toNat env _ _ (show ml - row - args.header.height - args.skipAfter ≠ 0 by omega), hk k3, e4]
  simp only [List.map_map]
  rfl

/-- `read` on columns that stand for a sheet, exceptions included. -/
theorem readColumns_sheet {A D : Type} {env : Env} {p : ConcatOpts} {cols : Cols} {grid} (h : ColsStand env p cols grid)
    (lib : Lib A D) (search : Str → Option (Str → Bool)) (reMatch : Str → Str → Py Bool) (args : ReadArgs D)
    (size : Nat) (hs : 0 < size) (hsz : args.lookupSize = size) {ml : Int} (hml : maxLen cols = .ok ml)
    (hh : 0 ≤ args.header.height)
    (hlen : ∀ row : Nat, lookupRowV env grid (cols.map (·.1)) size search args.lookup = .ok (some row) →
      0 < ml - row - args.header.height - args.skipAfter) :
    readColumns env lib search reMatch args cols =
      sheetTableV env lib search reMatch args grid (cols.map (·.1)) (sortedKeys cols) ml := by
  have hk : ∀ {c : Cols}, c.map (·.1) = cols.map (·.1) → sortedKeys c = sortedKeys cols := by
    intro c hc; unfold sortedKeys; rw [hc]
  have hmem : ∀ {c : Cols}, c.map (·.1) = cols.map (·.1) → ∀ k ∈ sortedKeys cols, k ∈ c.map (·.1) := by
    intro c hc k hkk; rw [hc]; exact (List.perm_insertionSort _ _).mem_iff.mp hkk
  have h1 := findHeader_stands h search size hs args.lookup
  unfold sheetTableV
  rw [hsz, Int.toNat_natCast]
  cases hrow : lookupRowV env grid (cols.map (·.1)) size search args.lookup with
  | error e =>
    rw [hrow] at h1
    simp only at h1
    unfold readColumns
    simp only [hml, hsz, h1]
  | ok r =>
    rw [hrow] at h1
    obtain ⟨c1, e1, s1, k1⟩ := h1
    cases r with
    | none =>
      unfold readColumns
      simp only [hml, hsz, e1]
      rw [if_pos (show rowOr none = -1 from rfl)]
    | some row =>
      simp only
      have hne : ¬ (rowOr (some row) = -1) := by simp only [rowOr]; omega
      have h2 := headerOf_stands s1 row args.header hh
      rw [hk k1] at h2
      cases hnames : namesForV env grid (sortedKeys cols) row args.header with
      | error e =>
        rw [hnames] at h2
        simp only at h2
        unfold readColumns
        simp only [hml, hsz, e1, if_neg hne]
        simp only [rowOr, h2]
      | ok names =>
        rw [hnames] at h2
        obtain ⟨c2, e2, s2, k2⟩ := h2
        have k2 := k2.trans k1
        simp only
        cases hfs : filterKeys reMatch names (sortedKeys cols) args.filters with
        | error e =>
          unfold readColumns
          simp only [hml, hsz, e1, if_neg hne]
          simp only [rowOr, e2, hk k2, hfs]
        | ok fs =>
          simp only
          cases hm : maskForV grid fs args.strategy (args.header.height + row + args.skipAfter).toNat
              (ml - row - args.header.height - args.skipAfter).toNat with
          | ok m =>
            exact readColumns_stands h lib search reMatch args size hs hsz hml hrow hh hnames hfs
              (hlen row hrow) hm
          | error e =>
            have h3 := rowMask_stands s2 fs (fun k hkk => hmem k2 k (filterKeys_sub _ _ _ _ hfs k hkk)) args.strategy
              (args.header.height + row + args.skipAfter).toNat (ml - row - args.header.height - args.skipAfter).toNat
              (by have := hlen row hrow; omega)
            rw [hm] at h3
            simp only at h3
            have := hlen row hrow
            rw [show (((ml - row - args.header.height - args.skipAfter).toNat : Nat) : Int) =
              ml - row - args.header.height - args.skipAfter by omega] at h3
            unfold readColumns
            simp only [hml, hsz, e1, if_neg hne]
            simp only [rowOr, e2, hk k2, hfs]
            rw [rowMask_toNat env _ _ _ _ (show ml - row - args.header.height - args.skipAfter ≠ 0 by omega), h3]

/-- `read` on valid cells, exceptions included. -/
theorem readCells_held {A D : Type} (env : Env) (b : Bool) (shared : List (Option Str)) (o : ConcatOpts)
    (lib : Lib A D) (search : Str → Option (Str → Bool))
    (reMatch : Str → Str → Py Bool) (args : ReadArgs D) (cells : List Cell) (hne : cells ≠ [])
    (hr : ∀ k, HeldDatable o (inlineColumn cells k) (heldRows env b shared (rawColumn (colCells cells k))))
    (hv : ValidCells env b shared cells) (hs : 0 < args.lookupSize) (hh : 0 ≤ args.header.height)
    (hlen : ∀ row : Nat, lookupRowV env (heldView env o b shared cells) (firstSeen cells)
      args.lookupSize.toNat search args.lookup = .ok (some row) →
      0 < maxSpan cells - row - args.header.height - args.skipAfter) :
    readCells env lib search reMatch args (freshSeries shared b o) cells =
      sheetTableV env lib search reMatch args (heldView env o b shared cells) (firstSeen cells) (columnsOf cells)
        (maxSpan cells) := by
  obtain ⟨cols, e, hc⟩ := collect_ok env b shared o cells hv
  obtain ⟨hst, hl⟩ := hc.held hr hv
  unfold readCells
  rw [e]
  simp only
  rw [← hc.order] at hlen ⊢
  rw [← hc.sorted]
  exact readColumns_sheet hst lib search reMatch args args.lookupSize.toNat (by omega) (by omega) (hc.maxLen hl hne) hh
    hlen

/-- `read` on present cells, exceptions included. -/
theorem readCells_runs {A D : Type} (env : Env) (b : Bool) (shared : List (Option Str)) (o : ConcatOpts)
    (lib : Lib A D) (search : Str → Option (Str → Bool))
    (reMatch : Str → Str → Py Bool) (args : ReadArgs D) (cells : List Cell) (hne : cells ≠ [])
    (hr : ∀ k, Datable o (inlineColumn cells k) (colValues env b shared cells k))
    (hv : PresentCells env b shared cells) (hs : 0 < args.lookupSize) (hh : 0 ≤ args.header.height)
    (hlen : ∀ row : Nat, lookupRowV env (runsView env o b shared cells) (firstSeen cells)
      args.lookupSize.toNat search args.lookup = .ok (some row) →
      0 < maxSpan cells - row - args.header.height - args.skipAfter) :
    readCells env lib search reMatch args (freshSeries shared b o) cells =
      sheetTableV env lib search reMatch args (runsView env o b shared cells) (firstSeen cells) (columnsOf cells)
        (maxSpan cells) := by
  rw [← heldView_full hv] at hlen ⊢
  exact readCells_held env b shared o lib search reMatch args cells hne
    (fun k => (hr k).held (colCells_present hv k)) hv.valid hs hh hlen

theorem fetchedRuns_isSome (env : Env) (o : ConcatOpts) (rows : List (Option (Nat × Val))) :
    (fetchedRuns env o rows).vals.map Option.isSome = rows.map Option.isSome := by
  have h : ∀ f : Nat × Val → Val, (rows.map (Option.map f)).map Option.isSome = rows.map Option.isSome := by
    intro f
    rw [List.map_map]
    apply List.map_congr_left
    intro v _
    cases v <;> rfl
  have h2 : (resolvedRuns env o rows).map Option.isSome = rows.map Option.isSome := by
    unfold resolvedRuns
    split <;> split <;> exact h _
  rw [← h2]
  simp only [fetchedRuns, materialise, List.map_map]
  apply List.map_congr_left
  intro v _
  cases v <;> rfl

theorem numbered_isSome (env : Env) (b : Bool) (shared : List (Option Str)) (cells : List Cell) (k : Int)
    (off len : Nat) (m : Option (List Bool)) :
    (pickRows (numberedRows env b shared (rawColumn (colCells cells k))) off len m).map Option.isSome =
      (pickRows (colValues env b shared cells k) off len m).map Option.isSome := by
  rw [colValues, ← numbered_plain, plainCells, pickRows_map, List.map_map]
  apply List.map_congr_left
  intro v _
  cases v <;> rfl

theorem lookupRowV_plain (env : Env) (o : ConcatOpts) (values : Int → List (Option Val)) (keys : List Int) (size : Nat)
    (search : Str → Option (Str → Bool)) (lk : Lookup) :
    lookupRowV env (plainView env o values) keys size search lk = lookupRow env o values keys size search lk := by
  cases lk with
  | none => rfl
  | pattern s => rfl
  | column k =>
    unfold lookupRowV lookupRow
    simp only
    split
    · congr 1
      refine findIdx_map_eq _ _ _ _ ?_
      rw [← headTexts_isSome env o (window (values k) 0 size)]
      unfold headTexts
      rw [List.map_map]
      apply List.map_congr_left
      intro v _
      cases v <;> rfl
    · rfl

theorem sheetTableV_plain {A D : Type} (env : Env) (lib : Lib A D) (search : Str → Option (Str → Bool))
    (reMatch : Str → Str → Py Bool) (args : ReadArgs D) (o : ConcatOpts) (values : Int → List (Option Val))
    (order keys : List Int) (span : Int) :
    sheetTableV env lib search reMatch args (plainView env o values) order keys span =
      sheetTable env lib search reMatch args o values order keys span := by
  unfold sheetTableV sheetTable
  rw [lookupRowV_plain]
  rfl

/-- `read` on cells, exceptions included. -/
theorem readCells_sheet {A D : Type} (env : Env) (b : Bool) (shared : List (Option Str)) (o : ConcatOpts)
    (lib : Lib A D) (search : Str → Option (Str → Bool))
    (reMatch : Str → Str → Py Bool) (args : ReadArgs D) (cells : List Cell) (hne : cells ≠ [])
    (hr : ∀ k, Resolvable env o (inlineColumn cells k) (colValues env b shared cells k))
    (hv : PresentCells env b shared cells) (hs : 0 < args.lookupSize) (hh : 0 ≤ args.header.height)
    (hlen : ∀ row : Nat, lookupRow env o (colValues env b shared cells) (firstSeen cells)
      args.lookupSize.toNat search args.lookup = .ok (some row) →
      0 < maxSpan cells - row - args.header.height - args.skipAfter) :
    readCells env lib search reMatch args (freshSeries shared b o) cells =
      sheetTable env lib search reMatch args o (colValues env b shared cells) (firstSeen cells) (columnsOf cells)
        (maxSpan cells) := by
  have e := runsView_plain hr
  rw [readCells_runs env b shared o lib search reMatch args cells hne (fun k => (hr k).datable) hv hs hh
    (by rw [e]; simp only [lookupRowV_plain]; exact hlen), e, sheetTableV_plain]

end Rxls
