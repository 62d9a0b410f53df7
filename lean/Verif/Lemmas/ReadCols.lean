import Verif.Lemmas.ReadColumn
import Verif.Lemmas.ReadHeader
import Mathlib.Data.List.Perm.Basic
import Mathlib.Data.List.Nodup

/-! # The columns of a sheet -/

namespace Rxls

/-- The columns stand for the columns `grid` of a sheet. -/
structure ColsStand (env : Env) (p : ConcatOpts) (cols : Cols) (grid : Int → View) : Prop where
  nodup : (cols.map (·.1)).Nodup
  each : ∀ q ∈ cols, q.2.Stands env p (grid q.1)

/-- What a call gives on a series that stands for a column, leaving the column as it was. -/
def Gives {α : Type} (env : Env) (p : ConcatOpts) (f : Series → Series × Py α) (g : View → α) : Prop :=
  ∀ s V, s.Stands env p V → ∃ s', f s = (s', .ok (g V)) ∧ s'.Stands env p V

theorem onColumn_stands {α : Type} {env : Env} {p : ConcatOpts} {cols : Cols} {grid} (h : ColsStand env p cols grid)
    {f : Series → Series × Py α} {g} (hf : Gives env p f g) {k : Int} (hk : k ∈ cols.map (·.1)) :
    ∃ cols', onColumn cols k f = .ok (cols', g (grid k)) ∧ ColsStand env p cols' grid ∧
      cols'.map (·.1) = cols.map (·.1) := by
  obtain ⟨q, hq, rfl⟩ := List.mem_map.mp hk
  have hfind : (cols.find? fun x => x.1 = q.1) = some q := by
    cases hf : cols.find? fun x => x.1 = q.1 with
    | none =>
      rw [List.find?_eq_none] at hf
      exact absurd (decide_eq_true rfl) (hf q hq)
    | some x =>
      have h1 : x.1 = q.1 := by simpa using List.find?_some hf
      have h2 := List.mem_of_find?_eq_some hf
      rw [List.inj_on_of_nodup_map h.nodup h2 hq h1]
  obtain ⟨s', e1, e2⟩ := hf q.2 _ (h.each q hq)
  unfold onColumn
  rw [hfind]
  simp only [e1]
  have hkeys : (cols.map fun x => if x.1 = q.1 then (x.1, s') else x).map (·.1) = cols.map (·.1) := by
    rw [List.map_map]
    apply List.map_congr_left
    intro x _
    simp only [Function.comp]
    split <;> rfl
  refine ⟨_, rfl, ⟨by rw [hkeys]; exact h.nodup, ?_⟩, hkeys⟩
  intro y hy
  obtain ⟨x, hx, rfl⟩ := List.mem_map.mp hy
  by_cases he : x.1 = q.1
  · simp only [he, if_true]; exact e2
  · simp only [he, if_false]; exact h.each x hx

theorem onColumns_stands {α : Type} {env : Env} {p : ConcatOpts} {grid} {f : Series → Series × Py α} {g}
    (hf : Gives env p f g) : ∀ (ks : List Int) {cols : Cols}, ColsStand env p cols grid →
    (∀ k ∈ ks, k ∈ cols.map (·.1)) →
    ∃ cols', onColumns f cols ks = .ok (cols', ks.map fun k => g (grid k)) ∧ ColsStand env p cols' grid ∧
      cols'.map (·.1) = cols.map (·.1)
  | [], cols, h, _ => ⟨cols, rfl, h, rfl⟩
  | k :: ks, cols, h, hk => by
    obtain ⟨c1, e1, h1, k1⟩ := onColumn_stands h hf (hk k (by simp))
    obtain ⟨c2, e2, h2, k2⟩ := onColumns_stands hf ks h1 (fun x hx => by rw [k1]; exact hk x (by simp [hx]))
    refine ⟨c2, ?_, h2, k2.trans k1⟩
    rw [onColumns, e1]
    simp only [e2]
    rfl

/-! ## Calls -/

theorem fetch_gives (env : Env) (p : ConcatOpts) (off len : Nat) (m : Option (List Bool)) (hm : SomeRow len m) :
    Gives env p (fetchWith env off len m) fun V => .arr (V off len m) :=
  fun _ _ h => h.fetch off len m hm

theorem presence_gives (env : Env) (p : ConcatOpts) (off len : Nat) (hl : 0 < len) :
    Gives env p (presence env off len) fun V => (V off len none).vals.map present := by
  intro s V h
  obtain ⟨s', e, h'⟩ := h.fetch off len none hl
  refine ⟨s', ?_, h'⟩
  unfold presence
  rw [e]

theorem textsOf_gives (env : Env) (p : ConcatOpts) (off len : Nat) (hl : 0 < len) :
    Gives env p (textsOf env off len) fun V => arrTexts env (V off len none) := by
  intro s V h
  obtain ⟨s', e, h'⟩ := h.fetch off len none hl
  refine ⟨s', ?_, h'⟩
  unfold textsOf Series.toUtf8
  rw [e]
  simp only
  have key : ∀ A : Arr, (A.dtype = .utf8 → ∀ v, some v ∈ A.vals → ∃ x, v = .str x) → ∃ B, castArr env .utf8 A = .ok B ∧
      B.vals.map valText = A.vals.map (Option.map (cellText env)) := by
    intro A hA
    unfold castArr
    by_cases ht : A.dtype = .utf8
    · rw [if_pos ht]
      refine ⟨A, rfl, ?_⟩
      apply List.map_congr_left
      intro v hv
      cases v with
      | none => rfl
      | some w => obtain ⟨x, rfl⟩ := hA ht w hv; rfl
    · rw [if_neg ht, castVals_rendered env .utf8 A.vals (by intro v _; cases v <;> rfl)]
      refine ⟨_, rfl, ?_⟩
      simp only [List.map_map]
      apply List.map_congr_left
      intro v _
      cases v <;> rfl
  obtain ⟨B, hB, hB2⟩ := key (V off len none) (h.view off len none).1
  rw [hB]
  simp only [hB2]
  rfl

theorem resolved_length (env : Env) (o : ConcatOpts) (cells : List (Option Val)) :
    (resolved env o cells).length = cells.length := by
  unfold resolved
  split <;> split <;> simp

theorem headTexts_length (env : Env) (p : ConcatOpts) (cells : List (Option Val)) :
    (headTexts env p cells).length = cells.length := by simp [headTexts, fetched, materialise, resolved_length]

theorem firstText_gives (env : Env) (p : ConcatOpts) (off : Nat) :
    Gives env p (firstText env off) fun V => ((arrTexts env (V off 1 none))[0]?).join := by
  intro s V h
  obtain ⟨s', e, h'⟩ := textsOf_gives env p off 1 (by omega) s V h
  refine ⟨s', ?_, h'⟩
  unfold firstText
  rw [Nat.cast_one] at e
  rw [e]
  have hl : (arrTexts env (V off 1 none)).length = 1 := by rw [arrTexts, List.length_map, (h.view off 1 none).2]
  obtain ⟨x, hx⟩ := List.length_eq_one_iff.mp hl
  simp only [hx]
  rfl

/-! ## The header -/

theorem makeHeader_stands {env : Env} {p : ConcatOpts} {cols : Cols} {grid} (h : ColsStand env p cols grid) (row n : Nat)
    (hn : 0 < n) :
    ∃ cols', makeHeader env cols row n = .ok (cols',
        (List.range cols.length).map
          (headName ((sortedKeys cols).map fun k => arrTexts env (grid k row n none)) n)) ∧
      ColsStand env p cols' grid ∧ cols'.map (·.1) = cols.map (·.1) := by
  have hmem : ∀ k ∈ sortedKeys cols, k ∈ cols.map (·.1) := by
    intro k hk; exact (List.perm_insertionSort _ _).mem_iff.mp hk
  have hlen : (sortedKeys cols).length = cols.length := by
    rw [sortedKeys, (List.perm_insertionSort _ _).length_eq, List.length_map]
  have hvl : ∀ k ∈ cols.map (·.1), ∀ n, (arrTexts env (grid k row n none)).length = n := by
    intro k hk n
    obtain ⟨q, hq, rfl⟩ := List.mem_map.mp hk
    rw [arrTexts, List.length_map, ((h.each q hq).view row n none).2]
  unfold makeHeader
  by_cases h1 : n = 1
  · subst h1
    obtain ⟨c', e, h2, h3⟩ := onColumns_stands (firstText_gives env p row) (sortedKeys cols) h hmem
    refine ⟨c', ?_, h2, h3⟩
    rw [if_pos (by simp)]
    rw [e]
    simp only
    rw [List.map_map, ← hlen]
    have := orUnnamed_names ((sortedKeys cols).map fun k => arrTexts env (grid k row 1 none)) (by
      intro c hc
      obtain ⟨k, hk, rfl⟩ := List.mem_map.mp hc
      exact hvl k (hmem k (by assumption)) _)
    rw [List.map_map, List.length_map] at this
    rw [← this]
    rfl
  · obtain ⟨c', e, h2, h3⟩ := onColumns_stands (textsOf_gives env p row n hn) (sortedKeys cols) h hmem
    refine ⟨c', ?_, h2, h3⟩
    rw [if_neg (by simpa using h1), e]
    simp only
    rw [headerLoop_names n, List.length_map, hlen]
    intro c hc
    obtain ⟨k, hk, rfl⟩ := List.mem_map.mp hc
    exact hvl k (hmem k (by assumption)) _

/-! ## Collecting the cells -/

theorem addAll_snoc (env : Env) (c : Cell) : ∀ (cs : List Cell) (s : Series),
    Series.addAll env (cs ++ [c]) s = (Series.addAll env cs s).bind fun s => s.add env c
  | [], s => by
    rw [List.nil_append, Series.addAll, Series.addAll]
    simp only [Except.bind]
    cases s.add env c <;> rfl
  | d :: cs, s => by
    rw [List.cons_append, Series.addAll, Series.addAll]
    cases s.add env d with
    | error e => rfl
    | ok s1 => exact addAll_snoc env c cs s1

theorem colCells_snoc (ds : List Cell) (c : Cell) (k : Int) :
    colCells (ds ++ [c]) k = if c.col = k then colCells ds k ++ [c] else colCells ds k := by
  unfold colCells
  rw [List.filter_append]
  by_cases h : c.col = k <;> simp [h]

/-- The columns after some cells. -/
structure Collected (env : Env) (fresh : Series) (cols : Cols) (ds : List Cell) : Prop where
  nodup : (cols.map (·.1)).Nodup
  keys : ∀ k, k ∈ cols.map (·.1) ↔ ∃ c ∈ ds, c.col = k
  each : ∀ q ∈ cols, Series.addAll env (colCells ds q.1) fresh = .ok q.2
  order : cols.map (·.1) = firstSeen ds

theorem firstSeen_snoc (ds : List Cell) (c : Cell) :
    firstSeen (ds ++ [c]) = if (∃ d ∈ ds, d.col = c.col) then firstSeen ds else firstSeen ds ++ [c.col] := by
  unfold firstSeen
  rw [List.reverse_append, List.reverse_singleton, List.singleton_append, List.map_cons]
  by_cases h : ∃ d ∈ ds, d.col = c.col
  · rw [if_pos h, List.dedup_cons_of_mem (by simpa using h)]
  · rw [if_neg h, List.dedup_cons_of_notMem (by simpa using h), List.reverse_cons]

theorem addCell_collected {env : Env} {fresh : Series} {cols : Cols} {ds : List Cell} {c : Cell}
    (h : Collected env fresh cols ds)
    (hok : ∃ s, Series.addAll env (colCells (ds ++ [c]) c.col) fresh = .ok s) :
    ∃ cols', addCell env fresh cols c = .ok cols' ∧ Collected env fresh cols' (ds ++ [c]) := by
  obtain ⟨s, hs⟩ := hok
  rw [colCells_snoc, if_pos rfl, addAll_snoc] at hs
  unfold addCell
  cases hf : cols.find? fun p => p.1 = c.col with
  | none =>
    have hnk : c.col ∉ cols.map (·.1) := by
      rw [List.find?_eq_none] at hf
      intro hm
      obtain ⟨q, hq, he⟩ := List.mem_map.mp hm
      exact absurd he (by simpa using hf q hq)
    have hno : ¬ ∃ d ∈ ds, d.col = c.col := fun hd => hnk ((h.keys _).mpr hd)
    have hcc : colCells ds c.col = [] := by
      unfold colCells
      rw [List.filter_eq_nil_iff]
      intro d hd
      simpa using fun he => hno ⟨d, hd, he⟩
    rw [hcc, Series.addAll] at hs
    simp only [Except.bind] at hs
    rw [hs]
    refine ⟨_, rfl, ?_, ?_, ?_, ?_⟩
    · rw [List.map_append]
      refine List.nodup_append.mpr ⟨h.nodup, by simp, ?_⟩
      intro a ha b hb
      simp at hb
      subst hb
      exact fun he => hnk (he ▸ ha)
    · intro k
      rw [List.map_append, List.mem_append, h.keys]
      simp only [List.map_cons, List.map_nil, List.mem_singleton, List.mem_append]
      constructor
      · rintro (⟨d, hd, rfl⟩ | rfl)
        · exact ⟨d, .inl hd, rfl⟩
        · exact ⟨c, .inr rfl, rfl⟩
      · rintro ⟨d, hd | rfl, rfl⟩
        · exact .inl ⟨d, hd, rfl⟩
        · exact .inr rfl
    · intro q hq
      rcases List.mem_append.mp hq with hq | hq
      · have hne : c.col ≠ q.1 := fun he => hnk (he ▸ List.mem_map_of_mem hq)
        rw [colCells_snoc, if_neg hne]
        exact h.each q hq
      · rw [List.mem_singleton] at hq
        subst hq
        simp only
        rw [colCells_snoc, if_pos rfl, hcc, List.nil_append, Series.addAll, hs]
        rfl
    · rw [List.map_append, firstSeen_snoc, if_neg hno, h.order]; rfl
  | some p =>
    have hp1 : p.1 = c.col := by simpa using List.find?_some hf
    have hpm := List.mem_of_find?_eq_some hf
    have hyes : ∃ d ∈ ds, d.col = c.col := (h.keys _).mp (hp1 ▸ List.mem_map_of_mem hpm)
    have he := h.each p hpm
    rw [hp1] at he
    rw [he] at hs
    simp only [Except.bind] at hs
    simp only [hs]
    have hkeys : (cols.map fun x => if x.1 = c.col then (x.1, s) else x).map (·.1) = cols.map (·.1) := by
      rw [List.map_map]
      apply List.map_congr_left
      intro x _
      simp only [Function.comp]
      split <;> rfl
    refine ⟨_, rfl, by rw [hkeys]; exact h.nodup, ?_, ?_, ?_⟩
    · intro k
      rw [hkeys, h.keys]
      constructor
      · rintro ⟨d, hd, rfl⟩; exact ⟨d, by simp [hd], rfl⟩
      · rintro ⟨d, hd, rfl⟩
        rcases List.mem_append.mp hd with hd | hd
        · exact ⟨d, hd, rfl⟩
        · rw [List.mem_singleton.mp hd]; exact hyes
    · intro y hy
      obtain ⟨x, hx, rfl⟩ := List.mem_map.mp hy
      by_cases hxc : x.1 = c.col
      · simp only [hxc, if_true]
        rw [colCells_snoc, if_pos rfl, addAll_snoc, he]
        exact hs
      · simp only [hxc, if_false]
        rw [colCells_snoc, if_neg (fun e => hxc e.symm)]
        exact h.each x hx
    · rw [hkeys, firstSeen_snoc, if_pos hyes, h.order]

theorem collect_collected {env : Env} {fresh : Series} : ∀ (cs : List Cell) {cols : Cols} {ds : List Cell},
    Collected env fresh cols ds →
    (∀ (pre : List Cell), pre <+: ds ++ cs → ∀ k, ∃ s, Series.addAll env (colCells pre k) fresh = .ok s) →
    ∃ cols', collect env fresh cols cs = .ok cols' ∧ Collected env fresh cols' (ds ++ cs)
  | [], cols, ds, h, _ => ⟨cols, rfl, by rw [List.append_nil]; exact h⟩
  | c :: cs, cols, ds, h, hok => by
    obtain ⟨c1, e1, h1⟩ := addCell_collected (c := c) h (hok (ds ++ [c]) ⟨cs, by simp⟩ c.col)
    obtain ⟨c2, e2, h2⟩ := collect_collected cs h1 (by simpa using hok)
    refine ⟨c2, ?_, by simpa using h2⟩
    rw [collect, e1]
    exact e2

theorem Collected.start (env : Env) (fresh : Series) : Collected env fresh [] [] :=
  ⟨by simp, by simp, by simp, rfl⟩

theorem colCells_present {env : Env} {b : Bool} {shared : List (Option Str)} {cells : List Cell}
    (h : PresentCells env b shared cells) (k : Int) : PresentCells env b shared (colCells cells k) :=
  fun c hc => h c (List.mem_filter.mp hc).1

theorem colCells_valid {env : Env} {b : Bool} {shared : List (Option Str)} {cells : List Cell}
    (h : ValidCells env b shared cells) (k : Int) : ValidCells env b shared (colCells cells k) :=
  fun c hc => h c (List.mem_filter.mp hc).1

theorem collect_ok (env : Env) (b : Bool) (shared : List (Option Str)) (o : ConcatOpts) (cells : List Cell)
    (hv : ValidCells env b shared cells) :
    ∃ cols, collect env (freshSeries shared b o) [] cells = .ok cols ∧
      Collected env (freshSeries shared b o) cols cells := by
  refine collect_collected cells (Collected.start env _) ?_
  intro pre hpre k
  have hvp : ValidCells env b shared (colCells pre k) := by
    intro c hc
    exact hv c (hpre.subset (List.mem_filter.mp hc).1)
  obtain ⟨s, _, h1, _⟩ := built_column env b shared o (colCells pre k) hvp
  exact ⟨s, h1⟩

theorem Collected.held {env : Env} {b : Bool} {shared : List (Option Str)} {o : ConcatOpts} {cols : Cols}
    {cells : List Cell} (h : Collected env (freshSeries shared b o) cols cells)
    (hr : ∀ k, HeldDatable o (inlineColumn cells k) (heldRows env b shared (rawColumn (colCells cells k))))
    (hv : ValidCells env b shared cells) :
    ColsStand env o cols (heldView env o b shared cells) ∧
      ∀ q ∈ cols, q.2.len = spanOf cells q.1 := by
  have key : ∀ q ∈ cols, q.2.Stands env o (heldView env o b shared cells q.1) ∧ q.2.len = spanOf cells q.1 := by
    intro q hq
    have hne : colCells cells q.1 ≠ [] := by
      obtain ⟨c, hc, he⟩ := (h.keys q.1).mp (List.mem_map_of_mem hq)
      intro h0
      have : c ∈ colCells cells q.1 := List.mem_filter.mpr ⟨hc, by simp [he]⟩
      rw [h0] at this
      simp at this
    obtain ⟨s, h1, h2, h3⟩ := built_held env b shared o _ _ (hr q.1)
      (fun h c hc => by simpa using List.all_eq_true.mp h c hc) (colCells_valid hv q.1) hne
    have := h.each q hq
    rw [h1] at this
    injection this with this
    subst this
    refine ⟨h2, ?_⟩
    rw [h3]
    unfold spanOf
    cases hc : colCells cells q.1 with
    | nil => exact absurd hc hne
    | cons c cs => rfl
  exact ⟨⟨h.nodup, fun q hq => (key q hq).1⟩, fun q hq => (key q hq).2⟩

/-- Columns whose texts are all there. -/
theorem heldView_full {env : Env} {b : Bool} {shared : List (Option Str)} {o : ConcatOpts} {cells : List Cell}
    (hv : PresentCells env b shared cells) : heldView env o b shared cells = runsView env o b shared cells := by
  funext k off len m
  rw [heldView, runsView, heldRows_full fun x v hm => rawColumn_present (colCells_present hv k) hm, pickRows_full,
    fetchedHeld_full]

theorem Collected.stand {env : Env} {b : Bool} {shared : List (Option Str)} {o : ConcatOpts} {cols : Cols}
    {cells : List Cell} (h : Collected env (freshSeries shared b o) cols cells)
    (hr : ∀ k, Datable o (inlineColumn cells k) (colValues env b shared cells k))
    (hv : PresentCells env b shared cells) :
    ColsStand env o cols (runsView env o b shared cells) ∧
      ∀ q ∈ cols, q.2.len = spanOf cells q.1 := by
  rw [← heldView_full hv]
  exact h.held (fun k => (hr k).held (colCells_present hv k)) hv.valid

theorem Resolvable.datable {env : Env} {o : ConcatOpts} {inl : Bool} {cells : List (Option Val)}
    (h : Resolvable env o inl cells) : Datable o inl cells := fun h1 h2 => (h.tmp h1 h2).imp_right (·.1)

/-- Columns whose conflict resolution is a matter of values alone. -/
theorem runsView_plain {env : Env} {b : Bool} {shared : List (Option Str)} {o : ConcatOpts} {cells : List Cell}
    (hr : ∀ k, Resolvable env o (inlineColumn cells k) (colValues env b shared cells k)) :
    runsView env o b shared cells = plainView env o (colValues env b shared cells) := by
  funext k off len m
  have e : plainCells (pickRows (numberedRows env b shared (rawColumn (colCells cells k))) off len m) =
      pickRows (colValues env b shared cells k) off len m := by
    rw [plainCells, ← pickRows_map, colValues, ← numbered_plain]
    rfl
  rw [runsView, plainView, fetchedRuns_resolvable (inl := inlineColumn cells k), e]
  rw [e]
  exact (hr k).sub fun v => pickRows_mem

theorem Collected.sorted {env : Env} {fresh : Series} {cols : Cols} {cells : List Cell}
    (h : Collected env fresh cols cells) : sortedKeys cols = columnsOf cells := by
  unfold sortedKeys columnsOf
  have hp : (cols.map (·.1)).Perm (cells.map (·.col)).dedup := by
    refine (List.perm_ext_iff_of_nodup h.nodup (List.nodup_dedup _)).mpr ?_
    intro k
    rw [h.keys, List.mem_dedup, List.mem_map]
  exact ((List.perm_insertionSort _ _).trans (hp.trans (List.perm_insertionSort _ _).symm)).eq_of_sortedLE
    List.sortedLE_insertionSort List.sortedLE_insertionSort

end Rxls
