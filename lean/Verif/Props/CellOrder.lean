import Verif.Props.Read

/-! # C97: in which order cells of different columns arrive -/

namespace Rxls

/-- Two outcomes of a step: the same exception, or the same value and the same columns in another order. -/
inductive PermOut {α : Type} : Py (Cols × α) → Py (Cols × α) → Prop
  | error (e : PyErr) : PermOut (.error e) (.error e)
  | ok (c c' : Cols) (a : α) (hp : c.Perm c') (hn : (c.map (·.1)).Nodup) : PermOut (.ok (c, a)) (.ok (c', a))

theorem find_key {cols : Cols} (hn : (cols.map (·.1)).Nodup) {p : Int × Series} (hp : p ∈ cols) :
    (cols.find? fun q => q.1 = p.1) = some p := by
  induction cols with
  | nil => cases hp
  | cons q cols ih =>
    rw [List.map_cons, List.nodup_cons] at hn
    rcases List.mem_cons.1 hp with rfl | hp
    · simp
    · have : q.1 ≠ p.1 := fun h => hn.1 (h ▸ List.mem_map_of_mem hp)
      rw [List.find?_cons_of_neg (by simpa using this)]
      exact ih hn.2 hp

theorem find_perm {c c' : Cols} (hp : c.Perm c') (hn : (c.map (·.1)).Nodup) (k : Int) :
    (c'.find? fun q => q.1 = k) = c.find? fun q => q.1 = k := by
  cases h : c.find? fun q => q.1 = k with
  | none =>
    rw [List.find?_eq_none] at h ⊢
    exact fun q hq => h q (hp.mem_iff.2 hq)
  | some p =>
    have hk : p.1 = k := by simpa using List.find?_some h
    subst hk
    exact find_key ((hp.map _).nodup_iff.1 hn) (hp.mem_iff.1 (List.mem_of_find?_eq_some h))

theorem setCol_keys (c : Cols) (k : Int) (s : Series) :
    (c.map fun q => if q.1 = k then (q.1, s) else q).map (·.1) = c.map (·.1) := by
  rw [List.map_map]
  refine List.map_congr_left fun q _ => ?_
  simp only [Function.comp]
  split <;> rfl

theorem onColumn_perm {α : Type} {c c' : Cols} (hp : c.Perm c') (hn : (c.map (·.1)).Nodup) (k : Int)
    (f : Series → Series × Py α) : PermOut (onColumn c k f) (onColumn c' k f) := by
  unfold onColumn
  rw [find_perm hp hn]
  cases c.find? fun q => q.1 = k with
  | none => exact .error _
  | some p =>
    simp only
    rcases f p.2 with ⟨s, e | a⟩
    · exact .error e
    · exact .ok _ _ a (hp.map _) (by rw [setCol_keys]; exact hn)

theorem onColumns_perm {α : Type} (f : Series → Series × Py α) (ks : List Int) {c c' : Cols} (hp : c.Perm c')
    (hn : (c.map (·.1)).Nodup) : PermOut (onColumns f c ks) (onColumns f c' ks) := by
  induction ks generalizing c c' with
  | nil => exact .ok _ _ _ hp hn
  | cons k ks ih =>
    unfold onColumns
    have := onColumn_perm hp hn k f
    generalize onColumn c k f = x at this
    generalize onColumn c' k f = y at this
    cases this with
    | error e => exact .error e
    | ok d d' a hp' hn' =>
      simp only
      have := ih hp' hn'
      generalize onColumns f d ks = x at this
      generalize onColumns f d' ks = y at this
      cases this with
      | error e => exact .error e
      | ok g g' as hp2 hn2 => exact .ok _ _ _ hp2 hn2

theorem sortedKeys_perm {c c' : Cols} (hp : c.Perm c') : sortedKeys c' = sortedKeys c := by
  unfold sortedKeys
  refine List.Perm.eq_of_pairwise (le := (· ≤ ·)) ?_ (List.pairwise_insertionSort _ _) (List.pairwise_insertionSort _ _) ?_
  · intro a b _ _ h1 h2; exact le_antisymm h1 h2
  · exact (List.perm_insertionSort _ _).trans ((hp.symm.map _).trans (List.perm_insertionSort _ _).symm)

theorem maxLen_perm {c c' : Cols} (hp : c.Perm c') : maxLen c' = maxLen c := by
  have key : ∀ (p : Int × Series) (ps : Cols) (n : Int), ps.foldl (fun m q => max m q.2.len) p.2.len = n ↔
      (∃ q ∈ p :: ps, q.2.len = n) ∧ ∀ q ∈ p :: ps, q.2.len ≤ n := by
    intro p ps
    have h : (∃ q ∈ p :: ps, q.2.len = ps.foldl (fun m q => max m q.2.len) p.2.len) ∧
        ∀ q ∈ p :: ps, q.2.len ≤ ps.foldl (fun m q => max m q.2.len) p.2.len := by
      induction ps using List.reverseRecOn with
      | nil => simp
      | append_singleton ps x ih =>
        rw [List.foldl_append]
        simp only [List.foldl_cons, List.foldl_nil]
        generalize ps.foldl (fun m q => max m q.2.len) p.2.len = m at ih ⊢
        constructor
        · rcases le_total m x.2.len with h | h
          · exact ⟨x, by simp, (max_eq_right h).symm⟩
          · obtain ⟨q, hq, he⟩ := ih.1
            refine ⟨q, ?_, by rw [he, max_eq_left h]⟩
            simp only [List.mem_cons, List.mem_append] at hq ⊢
            tauto
        · intro q hq
          simp only [List.mem_cons, List.mem_append, List.not_mem_nil, or_false] at hq
          rcases hq with rfl | hq | rfl
          · exact (ih.2 _ List.mem_cons_self).trans (le_max_left _ _)
          · exact (ih.2 _ (List.mem_cons_of_mem _ hq)).trans (le_max_left _ _)
          · exact le_max_right _ _
    intro n
    constructor
    · rintro rfl; exact h
    · rintro ⟨⟨q, hq, rfl⟩, h2⟩
      obtain ⟨⟨r, hr, he⟩, h4⟩ := h
      exact le_antisymm (he ▸ h2 r hr) (h4 q hq)
  cases c with
  | nil => rw [hp.nil_eq]
  | cons p ps =>
    cases c' with
    | nil => exact absurd hp.symm.nil_eq (by simp)
    | cons p' ps' =>
      simp only [maxLen, Except.ok.injEq]
      rw [key]
      have := (key p ps _).1 rfl
      exact ⟨this.1.imp fun q h => ⟨hp.mem_iff.1 h.1, h.2⟩, fun q hq => this.2 q (hp.mem_iff.2 hq)⟩

theorem findHeader_perm (env : Env) (search : Str → Option (Str → Bool)) {c c' : Cols} (hp : c.Perm c')
    (hn : (c.map (·.1)).Nodup) (size : Int) (l : Lookup) (hl : ∀ p, l ≠ .pattern p) :
    PermOut (findHeader env search c size l) (findHeader env search c' size l) := by
  cases l with
  | none => exact .ok _ _ _ hp hn
  | pattern p => exact absurd rfl (hl p)
  | column k =>
    simp only [findHeader]
    have := onColumn_perm hp hn k (textsOf env 0 size)
    generalize onColumn c k (textsOf env 0 size) = x at this
    generalize onColumn c' k (textsOf env 0 size) = y at this
    cases this with
    | error e => exact .error e
    | ok d d' a hp' hn' =>
      simp only
      cases a.findIdx? Option.isSome with
      | none => exact .ok _ _ _ hp' hn'
      | some i => exact .ok _ _ _ hp' hn'

theorem headerOf_perm (env : Env) {c c' : Cols} (hp : c.Perm c') (hn : (c.map (·.1)).Nodup) (r : Int) (h : HeaderArg) :
    PermOut (headerOf env c r h) (headerOf env c' r h) := by
  cases h with
  | names l =>
    simp only [headerOf, hp.length_eq]
    split
    · exact .error _
    · exact .ok _ _ _ hp hn
  | rows n =>
    simp only [headerOf, makeHeader, hp.length_eq, sortedKeys_perm hp]
    by_cases h0 : n ≠ 0
    · rw [if_pos h0, if_pos h0]
      by_cases h1 : n = 1
      · rw [if_pos h1, if_pos h1]
        have := onColumns_perm (firstText env r) (sortedKeys c) hp hn
        generalize onColumns (firstText env r) c (sortedKeys c) = x at this
        generalize onColumns (firstText env r) c' (sortedKeys c) = y at this
        cases this with
        | error e => exact .error e
        | ok d d' a hp' hn' => exact .ok _ _ _ hp' hn'
      · rw [if_neg h1, if_neg h1]
        have := onColumns_perm (textsOf env r n) (sortedKeys c) hp hn
        generalize onColumns (textsOf env r n) c (sortedKeys c) = x at this
        generalize onColumns (textsOf env r n) c' (sortedKeys c) = y at this
        cases this with
        | error e => exact .error e
        | ok d d' a hp' hn' => exact .ok _ _ _ hp' hn'
    · rw [if_neg h0, if_neg h0]
      exact .ok _ _ _ hp hn

theorem rowMask_perm (env : Env) {c c' : Cols} (hp : c.Perm c') (hn : (c.map (·.1)).Nodup) (ks : List Int)
    (st : Strategy) (o l : Int) : PermOut (rowMask env c ks st o l) (rowMask env c' ks st o l) := by
  unfold rowMask
  split
  · exact .ok _ _ _ hp hn
  · have := onColumns_perm (presence env o l) ks hp hn
    generalize onColumns (presence env o l) c ks = x at this
    generalize onColumns (presence env o l) c' ks = y at this
    cases this with
    | error e => exact .error e
    | ok d d' a hp' hn' =>
      simp only
      cases combineFilters st a with
      | error e => exact .error e
      | ok m =>
        simp only
        split
        · exact .error _
        · exact .ok _ _ _ hp' hn'

/-- From the columns on, everything but the search for a pattern is independent of the order of the columns. -/
theorem readColumns_perm {A D : Type} (env : Env) (lib : Lib A D) (search : Str → Option (Str → Bool))
    (reMatch : Str → Str → Py Bool) (args : ReadArgs D) (hl : ∀ p, args.lookup ≠ .pattern p) {c c' : Cols}
    (hp : c.Perm c') (hn : (c.map (·.1)).Nodup) :
    readColumns env lib search reMatch args c' = readColumns env lib search reMatch args c := by
  unfold readColumns
  rw [maxLen_perm hp]
  cases maxLen c with
  | error e => rfl
  | ok n =>
    simp only
    have := findHeader_perm env search hp hn args.lookupSize args.lookup hl
    generalize findHeader env search c args.lookupSize args.lookup = x at this
    generalize findHeader env search c' args.lookupSize args.lookup = y at this
    cases this with
    | error e => rfl
    | ok d d' r hp' hn' =>
      simp only
      split
      · rfl
      · have := headerOf_perm env hp' hn' r args.header
        generalize headerOf env d r args.header = x at this
        generalize headerOf env d' r args.header = y at this
        cases this with
        | error e => rfl
        | ok f f' a hp2 hn2 =>
          obtain ⟨height, names⟩ := a
          simp only [sortedKeys_perm hp2]
          cases filterKeys reMatch names (sortedKeys f) args.filters with
          | error e => rfl
          | ok ks =>
            simp only
            have := rowMask_perm env hp2 hn2 ks args.strategy (height + r + args.skipAfter)
              (n - r - height - args.skipAfter)
            generalize rowMask env f ks args.strategy _ _ = x at this
            generalize rowMask env f' ks args.strategy _ _ = y at this
            cases this with
            | error e => rfl
            | ok g g' mask hp3 hn3 =>
              simp only [sortedKeys_perm hp3]
              have := onColumns_perm (fetchWith env (height + r + args.skipAfter) (n - r - height - args.skipAfter) mask)
                (sortedKeys g) hp3 hn3
              generalize onColumns _ g (sortedKeys g) = x at this
              generalize onColumns _ g' (sortedKeys g) = y at this
              cases this with
              | error e => rfl
              | ok => rfl

/-- The column of a number, if there is one. -/
def colOf (c : Cols) (k : Int) : Option Series := (c.find? fun q => q.1 = k).map (·.2)

/-- The cells of one column, added one after the other to what there is. -/
def addRun (env : Env) (fresh : Series) : Option Series → List Cell → Py (Option Series)
  | s, [] => .ok s
  | s, c :: cs =>
    match (s.getD fresh).add env c with
    | .error e => .error e
    | .ok s => addRun env fresh (some s) cs

theorem addCell_spec (env : Env) (fresh : Series) (cols : Cols) (hn : (cols.map (·.1)).Nodup) (c : Cell) :
    (∀ e, ((colOf cols c.col).getD fresh).add env c = .error e → addCell env fresh cols c = .error e) ∧
    ∀ s, ((colOf cols c.col).getD fresh).add env c = .ok s → ∃ cols', addCell env fresh cols c = .ok cols' ∧
      (cols'.map (·.1)).Nodup ∧ ∀ k, colOf cols' k = if k = c.col then some s else colOf cols k := by
  unfold addCell colOf
  cases h : cols.find? fun p => p.1 = c.col with
  | none =>
    simp only [Option.map_none, Option.getD_none]
    refine ⟨fun e he => by rw [he], fun s hs => ⟨cols ++ [(c.col, s)], by rw [hs], ?_, fun k => ?_⟩⟩
    · rw [List.map_append, List.nodup_append]
      refine ⟨hn, by simp, ?_⟩
      intro a ha b hb hab
      simp only [List.map_cons, List.map_nil, List.mem_cons, List.not_mem_nil, or_false] at hb
      obtain ⟨q, hq, rfl⟩ := List.mem_map.1 ha
      rw [List.find?_eq_none] at h
      exact h q hq (by simp [hab, hb])
    · rw [List.find?_append]
      by_cases hk : k = c.col
      · subst hk; simp [h]
      · rw [if_neg hk]
        have : ([(c.col, s)].find? fun q => decide (q.1 = k)) = none := by
          simpa using fun h => hk h.symm
        rw [this, Option.or_none]
  | some p =>
    simp only [Option.map_some, Option.getD_some]
    have hp : p.1 = c.col := by simpa using List.find?_some h
    refine ⟨fun e he => by rw [he], fun s hs => ⟨_, by rw [hs], by rw [setCol_keys]; exact hn, fun k => ?_⟩⟩
    have e : (cols.map fun q => if q.1 = c.col then (q.1, s) else q).find? (fun q => q.1 = k) =
        (cols.find? fun q => q.1 = k).map fun q => if q.1 = c.col then (q.1, s) else q := by
      rw [List.find?_map]
      congr 2
      funext q
      simp only [Function.comp]
      split <;> rfl
    rw [e]
    by_cases hk : k = c.col
    · subst hk; simp [h, hp]
    · rw [if_neg hk]
      cases h2 : cols.find? fun q => q.1 = k with
      | none => rfl
      | some q =>
        have hq : q.1 = k := by simpa using List.find?_some h2
        simp [hq, hk]

/-- What `collect` does, column by column. -/
theorem collect_columns (env : Env) (fresh : Series) (cells : List Cell) (cols : Cols) (hn : (cols.map (·.1)).Nodup) :
    (∀ cols', collect env fresh cols cells = .ok cols' → (cols'.map (·.1)).Nodup ∧
      ∀ k, addRun env fresh (colOf cols k) (cells.filter fun c => c.col = k) = .ok (colOf cols' k)) ∧
    ((∀ k, ∃ s, addRun env fresh (colOf cols k) (cells.filter fun c => c.col = k) = .ok s) →
      ∃ cols', collect env fresh cols cells = .ok cols') := by
  induction cells generalizing cols with
  | nil =>
    refine ⟨fun cols' h => ?_, fun _ => ⟨_, rfl⟩⟩
    cases h
    exact ⟨hn, fun k => rfl⟩
  | cons c cells ih =>
    obtain ⟨h1, h2⟩ := addCell_spec env fresh cols hn c
    cases ha : ((colOf cols c.col).getD fresh).add env c with
    | error e =>
      refine ⟨fun cols' h => ?_, fun h => ?_⟩
      · rw [collect, h1 e ha] at h; cases h
      · obtain ⟨s, hs⟩ := h c.col
        rw [List.filter_cons_of_pos (by simp), addRun, ha] at hs
        cases hs
    | ok s =>
      obtain ⟨cols1, hc, hn1, hk⟩ := h2 s ha
      have step : ∀ k, addRun env fresh (colOf cols k) ((c :: cells).filter fun c => c.col = k) =
          addRun env fresh (colOf cols1 k) (cells.filter fun c => c.col = k) := by
        intro k
        rw [hk]
        by_cases hkc : k = c.col
        · subst hkc
          rw [List.filter_cons_of_pos (by simp), addRun, ha, if_pos rfl]
        · rw [List.filter_cons_of_neg (by simpa using fun h => hkc h.symm), if_neg hkc]
      simp only [step, collect, hc]
      exact ih cols1 hn1

theorem perm_of_colOf {c c' : Cols} (hn : (c.map (·.1)).Nodup) (hn' : (c'.map (·.1)).Nodup)
    (h : ∀ k, colOf c' k = colOf c k) : c.Perm c' := by
  have key : ∀ {d d' : Cols}, (d.map (·.1)).Nodup → (∀ k, colOf d' k = colOf d k) → ∀ p ∈ d, p ∈ d' := by
    intro d d' hd hk p hp
    have h1 : colOf d p.1 = some p.2 := by rw [colOf, find_key hd hp]; rfl
    rw [← hk, colOf, Option.map_eq_some_iff] at h1
    obtain ⟨q, h2, h3⟩ := h1
    have h4 : q.1 = p.1 := by simpa using List.find?_some h2
    have : q = p := Prod.ext h4 h3
    exact this ▸ List.mem_of_find?_eq_some h2
  exact (List.perm_ext_iff_of_nodup hn.of_map hn'.of_map).2 fun p =>
    ⟨key hn h p, key hn' (fun k => (h k).symm) p⟩

theorem collect_snoc (env : Env) (fresh : Series) (cols : Cols) (cells : List Cell) (c : Cell) :
    collect env fresh cols (cells ++ [c]) = match collect env fresh cols cells with
      | .error e => .error e
      | .ok d => addCell env fresh d c := by
  induction cells generalizing cols with
  | nil =>
    simp only [List.nil_append, collect]
    cases addCell env fresh cols c <;> rfl
  | cons b cells ih =>
    simp only [List.cons_append, collect]
    cases addCell env fresh cols b with
    | error e => rfl
    | ok d => exact ih d

theorem firstSeen_append (cells : List Cell) (c : Cell) :
    firstSeen (cells ++ [c]) = if c.col ∈ firstSeen cells then firstSeen cells else firstSeen cells ++ [c.col] := by
  unfold firstSeen
  rw [List.reverse_append, List.reverse_singleton, List.singleton_append, List.map_cons]
  by_cases h : c.col ∈ cells.reverse.map (·.col)
  · rw [List.dedup_cons_of_mem h, if_pos (by simpa using h)]
  · rw [List.dedup_cons_of_notMem h, if_neg (by simpa using h), List.reverse_cons]

theorem collect_keys (env : Env) (fresh : Series) (cells : List Cell) (cols : Cols)
    (h : collect env fresh [] cells = .ok cols) : cols.map (·.1) = firstSeen cells := by
  induction cells using List.reverseRecOn generalizing cols with
  | nil => cases h; rfl
  | append_singleton cells c ih =>
    rw [collect_snoc] at h
    cases hd : collect env fresh [] cells with
    | error e => rw [hd] at h; cases h
    | ok d =>
      rw [hd] at h
      have hk := ih d hd
      rw [firstSeen_append, ← hk]
      simp only [addCell] at h
      cases hf : d.find? fun p => p.1 = c.col with
      | none =>
        have hm : c.col ∉ d.map (·.1) := by
          intro hm
          obtain ⟨q, hq, he⟩ := List.mem_map.1 hm
          rw [List.find?_eq_none] at hf
          exact hf q hq (by simp [he])
        rw [hf] at h
        rw [if_neg hm]
        simp only at h
        cases ha : fresh.add env c with
        | error e => rw [ha] at h; cases h
        | ok s => rw [ha] at h; cases h; simp
      | some p =>
        have hm : c.col ∈ d.map (·.1) :=
          List.mem_map.2 ⟨p, List.mem_of_find?_eq_some hf, by simpa using List.find?_some hf⟩
        rw [hf] at h
        rw [if_pos hm]
        simp only at h
        cases ha : p.2.add env c with
        | error e => rw [ha] at h; cases h
        | ok s => rw [ha] at h; cases h; exact setCol_keys d c.col s

theorem eq_of_perm_keys {c c' : Cols} (hp : c.Perm c') (hn : (c.map (·.1)).Nodup) (hk : c.map (·.1) = c'.map (·.1)) :
    c = c' := by
  refine List.ext_getElem (by simpa using congrArg List.length hk) fun i h1 h2 => ?_
  have e : (c[i]).1 = (c'[i]).1 := by
    have := congrArg (fun l => l[i]?) hk
    simpa [h1, h2] using this
  have f1 := find_key hn (List.getElem_mem h1)
  have f2 := find_key ((hp.map _).nodup_iff.1 hn) (List.getElem_mem h2)
  rw [← e, find_perm hp hn, f1] at f2
  exact Option.some.inj f2

/-- C97.  If two deliveries have the same cells in every column, in the same order within the column, `read` gives the
same table from both, or fails for both, unless it searches for a pattern; then if the columns have their first cells in
the same order.  Missing: a pattern with another order of the first cells, where it fails (below). -/
theorem C97_order_of_cells_partial {A D : Type} (env : Env) (lib : Lib A D) (search : Str → Option (Str → Bool))
    (reMatch : Str → Str → Py Bool) (args : ReadArgs D) (fresh : Series) (cells cells' : List Cell)
    (hl : (∀ p, args.lookup ≠ .pattern p) ∨ firstSeen cells' = firstSeen cells)
    (h : ∀ k, cells'.filter (fun c => c.col = k) = cells.filter fun c => c.col = k) (t : Table A) :
    readCells env lib search reMatch args fresh cells = .ok t ↔
      readCells env lib search reMatch args fresh cells' = .ok t := by
  have key : ∀ {cells cells' : List Cell}, ((∀ p, args.lookup ≠ .pattern p) ∨ firstSeen cells' = firstSeen cells) →
      (∀ k, cells'.filter (fun c => c.col = k) = cells.filter fun c => c.col = k) →
      readCells env lib search reMatch args fresh cells = .ok t →
      readCells env lib search reMatch args fresh cells' = .ok t := by
    intro cells cells' hl h ht
    obtain ⟨h1, h2⟩ := collect_columns env fresh cells [] (by simp)
    obtain ⟨h3, h4⟩ := collect_columns env fresh cells' [] (by simp)
    simp only [readCells] at ht ⊢
    cases hc : collect env fresh [] cells with
    | error e => rw [hc] at ht; cases ht
    | ok cols =>
      obtain ⟨n1, k1⟩ := h1 cols hc
      obtain ⟨cols', hc'⟩ := h4 fun k => ⟨_, by rw [h]; exact k1 k⟩
      obtain ⟨n2, k2⟩ := h3 cols' hc'
      rw [hc] at ht
      rw [hc']
      simp only at ht ⊢
      rw [← ht]
      have hp : cols.Perm cols' := perm_of_colOf n1 n2 fun k => by
        have := k2 k
        rw [h, k1 k] at this
        exact (Except.ok.inj this).symm
      rcases hl with hl | hl
      · exact readColumns_perm env lib search reMatch args hl hp n1
      · rw [eq_of_perm_keys hp n1 (by rw [collect_keys _ _ _ _ hc, collect_keys _ _ _ _ hc', hl])]
  exact ⟨key hl h, key (hl.imp id Eq.symm) fun k => (h k).symm⟩

/-- A table with two columns, delivered by rows and by columns. -/
def exByRows : List Cell := [tx 0 1 ['a'], tx 0 3 ['b'], nm 1 1 5, nm 1 3 6, nm 2 1 7, nm 2 3 8]

@[inherit_doc exByRows] def exByColumns : List Cell := [tx 0 3 ['b'], nm 1 3 6, nm 2 3 8, tx 0 1 ['a'], nm 1 1 5, nm 2 1 7]

example : (∀ k ∈ [1, 3], exByColumns.filter (fun c => c.col = k) = exByRows.filter fun c => c.col = k) ∧
    exRead { header := .rows 1, lookup := .column 3, filters := .positions [0] } exByRows =
      .ok ⟨[['a'], ['b']], [.arr ⟨.i8, [some (.i8 5), some (.i8 7)]⟩, .arr ⟨.i8, [some (.i8 6), some (.i8 8)]⟩]⟩ ∧
    exRead { header := .rows 1, lookup := .column 3, filters := .positions [0] } exByColumns =
      exRead { header := .rows 1, lookup := .column 3, filters := .positions [0] } exByRows := by
  decide +kernel

/-- A sheet in which the word `x` is the name of the second column and a value of the first. -/
def exWord : List Cell := [tx 1 0 ['i'], tx 1 1 ['x'], tx 2 0 ['x'], nm 2 1 6, tx 3 0 ['z'], nm 3 1 8]

/-- Finding, C97 fails: with a pattern the columns are searched in the order of their first cells, not from left to right
and not row by row.  A title above the second column decides whether row 1 or row 2 is the header. -/
theorem C97_title_finding :
    (exRead { header := .rows 1, lookup := .pattern ['x'] } (tx 0 1 ['t'] :: exWord)).map (·.names) = .ok [['i'], ['x']] ∧
    (exRead { header := .rows 1, lookup := .pattern ['x'] } (tx 0 0 ['t'] :: exWord)).map (·.names) = .ok [['x'], ['6']] ∧
    firstSeen (tx 0 1 ['t'] :: exWord) = [1, 0] ∧ firstSeen (tx 0 0 ['t'] :: exWord) = [0, 1] := by
  decide +kernel

/-- The same cells in another order. -/
theorem C97_order_finding :
    (∀ k ∈ [0, 1], (tx 1 1 ['x'] :: tx 1 0 ['i'] :: exWord.drop 2).filter (fun c => c.col = k) =
      exWord.filter fun c => c.col = k) ∧
    (exRead { header := .rows 1, lookup := .pattern ['x'] } (tx 1 1 ['x'] :: tx 1 0 ['i'] :: exWord.drop 2)).map (·.names) =
      .ok [['i'], ['x']] ∧
    (exRead { header := .rows 1, lookup := .pattern ['x'] } exWord).map (·.names) = .ok [['x'], ['6']] := by
  decide +kernel

end Rxls
