import Verif.Props.CellOrder
import Verif.Props.Series

/-! # C99: a column of the table comes from its own cells -/

namespace Rxls

/-! ## One step over the columns -/

theorem colOf_set (c : Cols) (k : Int) (s : Series) (x : Int) :
    colOf (c.map fun q => if q.1 = k then (q.1, s) else q) x = if x = k then (colOf c x).map fun _ => s else colOf c x := by
  unfold colOf
  induction c with
  | nil => simp
  | cons q c ih =>
    rw [List.map_cons, List.find?_cons, List.find?_cons]
    by_cases h1 : q.1 = k
    · rw [if_pos h1]
      by_cases h2 : q.1 = x
      · simp [h2, ← h1]
      · simp only [h2, decide_false]
        exact ih
    · rw [if_neg h1]
      by_cases h2 : q.1 = x
      · simp only [h2, decide_true, Option.map_some]
        rw [if_neg (by omega)]
      · simp only [h2, decide_false]
        exact ih

theorem onColumn_eq {α : Type} (cols : Cols) (k : Int) (f : Series → Series × Py α) :
    onColumn cols k f = match colOf cols k with
      | none => .error .keyError
      | some s =>
        match (f s).2 with
        | .error e => .error e
        | .ok a => .ok (cols.map fun q => if q.1 = k then (q.1, (f s).1) else q, a) := by
  unfold onColumn colOf
  cases cols.find? fun p => p.1 = k with
  | none => rfl
  | some p =>
    simp only [Option.map_some]
    rcases f p.2 with ⟨s, e | a⟩ <;> rfl

/-- What a step gives for a column, if all is well. -/
def stepOf {α : Type} (f : Series → Series × Py α) (s : Option Series) : Option α := s.bind fun s => (f s).2.toOption

theorem onColumns_ok {α : Type} (f : Series → Series × Py α) : ∀ (ks : List Int) (cols cols' : Cols) (l : List α),
    ks.Nodup → onColumns f cols ks = .ok (cols', l) →
    l.map some = ks.map (fun k => stepOf f (colOf cols k)) ∧ cols'.map (·.1) = cols.map (·.1) ∧
    ∀ k, colOf cols' k = if k ∈ ks then (colOf cols k).map (fun s => (f s).1) else colOf cols k
  | [], cols, cols', l, _, h => by
    simp only [onColumns, Except.ok.injEq, Prod.mk.injEq] at h
    obtain ⟨rfl, rfl⟩ := h
    simp
  | k :: ks, cols, cols', l, hn, h => by
    rw [List.nodup_cons] at hn
    rw [onColumns, onColumn_eq] at h
    cases hc : colOf cols k with
    | none => rw [hc] at h; cases h
    | some s =>
      rw [hc] at h
      simp only at h
      cases hf : (f s).2 with
      | error e => rw [hf] at h; cases h
      | ok a =>
        rw [hf] at h
        simp only at h
        generalize hcols : (cols.map fun q => if q.1 = k then (q.1, (f s).1) else q) = c1 at h
        cases hr : onColumns f c1 ks with
        | error e => rw [hr] at h; cases h
        | ok r =>
          obtain ⟨c2, l2⟩ := r
          rw [hr] at h
          simp only [Except.ok.injEq, Prod.mk.injEq] at h
          obtain ⟨rfl, rfl⟩ := h
          obtain ⟨e1, e2, e3⟩ := onColumns_ok f ks c1 c2 l2 hn.2 hr
          have hset := fun x => colOf_set cols k (f s).1 x
          rw [hcols] at hset
          refine ⟨?_, by rw [e2, ← hcols, setCol_keys], fun x => ?_⟩
          · rw [List.map_cons, List.map_cons, e1]
            congr 1
            · simp [stepOf, hc, hf, Except.toOption]
            · refine List.map_congr_left fun x hx => ?_
              rw [hset x, if_neg]
              rintro rfl
              exact hn.1 hx
          · rw [e3 x, hset x]
            by_cases hx : x = k
            · subst hx
              simp [hn.1, hc]
            · simp [hx]

theorem onColumns_total {α : Type} (f : Series → Series × Py α) : ∀ (ks : List Int) (cols : Cols), ks.Nodup →
    (∀ k ∈ ks, ∃ a, stepOf f (colOf cols k) = some a) → ∃ r, onColumns f cols ks = .ok r
  | [], cols, _, _ => ⟨_, rfl⟩
  | k :: ks, cols, hn, h => by
    rw [List.nodup_cons] at hn
    rw [onColumns, onColumn_eq]
    obtain ⟨a, ha⟩ := h k List.mem_cons_self
    cases hc : colOf cols k with
    | none => rw [hc] at ha; cases ha
    | some s =>
      rw [hc] at ha
      cases hf : (f s).2 with
      | error e => simp [stepOf, hf, Except.toOption] at ha
      | ok b =>
        simp only [hf]
        obtain ⟨r, hr⟩ := onColumns_total f ks (cols.map fun q => if q.1 = k then (q.1, (f s).1) else q) hn.2 (by
          intro x hx
          rw [colOf_set, if_neg (by rintro rfl; exact hn.1 hx)]
          exact h x (List.mem_cons_of_mem _ hx))
        rw [hr]
        exact ⟨_, rfl⟩

/-! ## The columns of some cells -/

theorem addRun_some (env : Env) (fresh : Series) : ∀ (cs : List Cell) (s : Series) (r : Option Series),
    addRun env fresh (some s) cs = .ok r → ∃ s', r = some s' ∧ Series.addAll env cs s = .ok s'
  | [], s, r, h => by cases h; exact ⟨s, rfl, rfl⟩
  | c :: cs, s, r, h => by
    rw [addRun, Option.getD_some] at h
    rw [Series.addAll]
    cases ha : s.add env c with
    | error e => rw [ha] at h; cases h
    | ok s' => rw [ha] at h; exact addRun_some env fresh cs s' r h

theorem addRun_addAll (env : Env) (fresh : Series) (cs : List Cell) (r : Option Series) (h : addRun env fresh none cs = .ok r) :
    (cs = [] ∧ r = none) ∨ (cs ≠ [] ∧ ∃ s, r = some s ∧ Series.addAll env cs fresh = .ok s) := by
  cases cs with
  | nil => cases h; exact .inl ⟨rfl, rfl⟩
  | cons c cs =>
    right
    refine ⟨by simp, ?_⟩
    rw [addRun, Option.getD_none] at h
    rw [Series.addAll]
    cases ha : fresh.add env c with
    | error e => rw [ha] at h; cases h
    | ok s => rw [ha] at h; exact addRun_some env fresh cs s r h

theorem collected_of_ok {env : Env} {fresh : Series} {cells : List Cell} {cols : Cols}
    (h : collect env fresh [] cells = .ok cols) : Collected env fresh cols cells := by
  have hk := collect_keys env fresh cells cols h
  obtain ⟨hn, hc⟩ := (collect_columns env fresh cells [] (by simp)).1 cols h
  refine ⟨hn, fun k => ?_, fun q hq => ?_, hk⟩
  · rw [hk]; simp [firstSeen]
  · have h1 := hc q.1
    have h2 : colOf cols q.1 = some q.2 := by rw [colOf, find_key hn hq]; rfl
    rw [h2, show colOf [] q.1 = none from rfl] at h1
    rcases addRun_addAll env fresh _ _ h1 with ⟨_, h3⟩ | ⟨_, s, h3, h4⟩
    · cases h3
    · injection h3 with h3
      subst h3
      exact h4

theorem collect_maxLen {env : Env} {b : Bool} {shared : List (Option Str)} {o : ConcatOpts} {cells : List Cell} {cols : Cols}
    (h : collect env (freshSeries shared b o) [] cells = .ok cols) (hne : cells ≠ []) :
    maxLen cols = .ok (maxSpan cells) := by
  have hc := collected_of_ok h
  refine hc.maxLen (fun q hq => ?_) hne
  have he := hc.each q hq
  obtain ⟨c, hcm, hck⟩ := (hc.keys q.1).1 (List.mem_map_of_mem hq)
  cases hl : colCells cells q.1 with
  | nil =>
    have : c ∈ colCells cells q.1 := List.mem_filter.2 ⟨hcm, by simpa using hck⟩
    rw [hl] at this; cases this
  | cons d ds =>
    rw [hl] at he
    rw [C35_len_is_span env b shared o d ds q.2 he, spanOf, hl]

/-! ## From the columns to the table -/

/-- A column after the header was taken from it. -/
def afterHead (env : Env) (n : Int) (s : Series) : Series :=
  if n = 0 then s else if n = 1 then (firstText env 0 s).1 else (textsOf env 0 n s).1

/-- The array of a column. -/
def ownArray {A D : Type} (env : Env) (lib : Lib A D) (n off len : Int) (s : Option Series) : Option A :=
  (stepOf (fetchWith env off len none) (s.map (afterHead env n))).map lib.ofFetched

/-- The header can be taken from a column. -/
def HeadOk (env : Env) (n : Int) (s : Option Series) : Prop :=
  n = 0 ∨ (n = 1 ∧ ∃ a, stepOf (firstText env 0) s = some a) ∨ (n ≠ 0 ∧ n ≠ 1 ∧ ∃ a, stepOf (textsOf env 0 n) s = some a)

theorem headerOf_ok {env : Env} {cols cols' : Cols} {n height : Int} {names : List Str} (hn : (cols.map (·.1)).Nodup)
    (h : headerOf env cols 0 (.rows n) = .ok (cols', height, names)) :
    height = n ∧ cols'.map (·.1) = cols.map (·.1) ∧ (∀ k ∈ cols.map (·.1), HeadOk env n (colOf cols k)) ∧
    (∀ k ∈ cols.map (·.1), colOf cols' k = (colOf cols k).map (afterHead env n)) ∧
    (n = 1 → names.map some = (sortedKeys cols).map fun k => (stepOf (firstText env 0) (colOf cols k)).map orUnnamed) := by
  have hsn : (sortedKeys cols).Nodup := (List.perm_insertionSort _ _).nodup_iff.2 hn
  have hmem : ∀ k, k ∈ sortedKeys cols ↔ k ∈ cols.map (·.1) := fun k => (List.perm_insertionSort _ _).mem_iff
  unfold headerOf at h
  simp only at h
  by_cases h0 : n = 0
  · subst h0
    simp only [ne_eq, not_true_eq_false, if_false, Except.ok.injEq, Prod.mk.injEq] at h
    obtain ⟨rfl, rfl, rfl⟩ := h
    exact ⟨rfl, rfl, fun _ _ => .inl rfl, fun k _ => by cases colOf cols k <;> rfl, fun h => by cases h⟩
  · rw [if_pos h0] at h
    by_cases h1 : n = 1
    · subst h1
      rw [makeHeader, if_pos rfl] at h
      cases hr : onColumns (firstText env 0) cols (sortedKeys cols) with
      | error e => rw [hr] at h; cases h
      | ok r =>
        obtain ⟨c1, l⟩ := r
        rw [hr] at h
        simp only [Except.ok.injEq, Prod.mk.injEq] at h
        obtain ⟨rfl, rfl, rfl⟩ := h
        obtain ⟨e1, e2, e3⟩ := onColumns_ok _ _ _ _ _ hsn hr
        refine ⟨rfl, e2, fun k hk => .inr (.inl ⟨rfl, ?_⟩), fun k hk => ?_, fun _ => ?_⟩
        · have : stepOf (firstText env 0) (colOf cols k) ∈ l.map some := by
            rw [e1]; exact List.mem_map_of_mem (f := fun k => stepOf (firstText env 0) (colOf cols k)) ((hmem k).2 hk)
          obtain ⟨a, _, ha⟩ := List.mem_map.1 this
          exact ⟨a, ha.symm⟩
        · rw [e3, if_pos ((hmem k).2 hk)]
          rfl
        · have := congrArg (List.map (Option.map orUnnamed)) e1
          simpa [Function.comp_def] using this
    · rw [makeHeader, if_neg h1] at h
      cases hr : onColumns (textsOf env 0 n) cols (sortedKeys cols) with
      | error e => rw [hr] at h; cases h
      | ok r =>
        obtain ⟨c1, l⟩ := r
        rw [hr] at h
        simp only [Except.ok.injEq, Prod.mk.injEq] at h
        obtain ⟨rfl, rfl, rfl⟩ := h
        obtain ⟨e1, e2, e3⟩ := onColumns_ok _ _ _ _ _ hsn hr
        refine ⟨rfl, e2, fun k hk => .inr (.inr ⟨h0, h1, ?_⟩), fun k hk => ?_, fun h => absurd h h1⟩
        · have : stepOf (textsOf env 0 n) (colOf cols k) ∈ l.map some := by
            rw [e1]; exact List.mem_map_of_mem (f := fun k => stepOf (textsOf env 0 n) (colOf cols k)) ((hmem k).2 hk)
          obtain ⟨a, _, ha⟩ := List.mem_map.1 this
          exact ⟨a, ha.symm⟩
        · rw [e3, if_pos ((hmem k).2 hk)]
          unfold afterHead
          simp only [h0, h1, if_false]

theorem headerLoop_length (prev : List (Option Str)) (grid : List (List (Option Str))) :
    (headerLoop prev grid).length = grid.length := by
  induction grid generalizing prev with
  | nil => rfl
  | cons p grid ih => unfold headerLoop; split <;> simp [ih]

theorem headerOf_total {env : Env} {cols : Cols} {n : Int} (hn : (cols.map (·.1)).Nodup)
    (h : ∀ k ∈ cols.map (·.1), HeadOk env n (colOf cols k)) :
    ∃ cols' names, headerOf env cols 0 (.rows n) = .ok (cols', n, names) ∧ names.length = cols.length := by
  have hsn : (sortedKeys cols).Nodup := (List.perm_insertionSort _ _).nodup_iff.2 hn
  have hmem : ∀ k, k ∈ sortedKeys cols ↔ k ∈ cols.map (·.1) := fun k => (List.perm_insertionSort _ _).mem_iff
  have hlen : (sortedKeys cols).length = cols.length := by simp [sortedKeys]
  unfold headerOf
  simp only
  by_cases h0 : n = 0
  · subst h0
    exact ⟨cols, (List.range cols.length).map fun i => unnamedDot ++ pyStr i, rfl, by simp⟩
  · rw [if_pos h0]
    by_cases h1 : n = 1
    · subst h1
      rw [makeHeader, if_pos rfl]
      obtain ⟨⟨c1, l⟩, hr⟩ := onColumns_total (firstText env 0) (sortedKeys cols) cols hsn (by
        intro k hk
        rcases h k ((hmem k).1 hk) with h2 | ⟨_, h2⟩ | ⟨_, h2, _⟩
        · cases h2
        · exact h2
        · exact absurd rfl h2)
      rw [hr]
      refine ⟨c1, _, rfl, ?_⟩
      have := congrArg List.length (onColumns_ok _ _ _ _ _ hsn hr).1
      simpa [hlen] using this
    · rw [makeHeader, if_neg h1]
      obtain ⟨⟨c1, l⟩, hr⟩ := onColumns_total (textsOf env 0 n) (sortedKeys cols) cols hsn (by
        intro k hk
        rcases h k ((hmem k).1 hk) with h2 | ⟨h2, _⟩ | ⟨_, _, h2⟩
        · exact absurd h2 h0
        · exact absurd h2 h1
        · exact h2)
      rw [hr]
      refine ⟨c1, _, rfl, ?_⟩
      have := congrArg List.length (onColumns_ok _ _ _ _ _ hsn hr).1
      rw [headerLoop_length]
      simpa [hlen] using this

/-- The arguments of a read without search, filters and types. -/
structure PlainArgs {D : Type} (args : ReadArgs D) (n : Int) : Prop where
  header : args.header = .rows n
  lookup : args.lookup = .none
  filters : args.filters = .none
  dtypes : args.dtypes = .none

theorem readColumns_ok {A D : Type} {env : Env} {lib : Lib A D} {search : Str → Option (Str → Bool)}
    {reMatch : Str → Str → Py Bool} {args : ReadArgs D} {n len : Int} (ha : PlainArgs args n) {cols : Cols} {t : Table A}
    (hn : (cols.map (·.1)).Nodup) (hlen : maxLen cols = .ok len) (h : readColumns env lib search reMatch args cols = .ok t) :
    (∀ k ∈ cols.map (·.1), HeadOk env n (colOf cols k)) ∧
    t.arrays.map some = (sortedKeys cols).map (fun k =>
      ownArray env lib n (n + args.skipAfter) (len - n - args.skipAfter) (colOf cols k)) ∧
    (∀ a ∈ t.arrays, ∀ b ∈ t.arrays, lib.len a = lib.len b) ∧
    (n = 1 → t.names.map some = (sortedKeys cols).map fun k => (stepOf (firstText env 0) (colOf cols k)).map orUnnamed) := by
  have hmem : ∀ k, k ∈ sortedKeys cols ↔ k ∈ cols.map (·.1) := fun k => (List.perm_insertionSort _ _).mem_iff
  have hsn : (sortedKeys cols).Nodup := (List.perm_insertionSort _ _).nodup_iff.2 hn
  unfold readColumns at h
  rw [hlen, ha.lookup, ha.header, ha.filters, ha.dtypes] at h
  simp only [findHeader, show ¬((0 : Int) = -1) by decide, if_false] at h
  cases hh : headerOf env cols 0 (.rows n) with
  | error e => rw [hh] at h; cases h
  | ok r =>
    obtain ⟨c1, height, names⟩ := r
    rw [hh] at h
    obtain ⟨rfl, h2, h3, h4, h5⟩ := headerOf_ok hn hh
    have hsk : sortedKeys c1 = sortedKeys cols := by unfold sortedKeys; rw [h2]
    simp only [filterKeys, rowMask, List.isEmpty_nil, if_true, hsk] at h
    cases hr : onColumns (fetchWith env (height + 0 + args.skipAfter) (len - 0 - height - args.skipAfter) none) c1
        (sortedKeys cols) with
    | error e => rw [hr] at h; cases h
    | ok r =>
      obtain ⟨c2, l⟩ := r
      rw [hr] at h
      obtain ⟨e1, -, -⟩ := onColumns_ok _ _ _ _ _ hsn hr
      simp only [applyDtypes, makeTable] at h
      split at h
      · cases h
      · split at h
        · rename_i hall
          injection h with h
          subst h
          refine ⟨h3, ?_, ?_, h5⟩
          · have := congrArg (List.map (Option.map lib.ofFetched)) e1
            rw [List.map_map, List.map_map] at this
            rw [List.map_map]
            refine Eq.trans ?_ (this.trans ?_)
            · rfl
            · refine List.map_congr_left fun k hk => ?_
              simp only [Function.comp, ownArray, h4 k ((hmem k).1 hk), add_zero, sub_zero]
          · simpa [List.all_eq_true] using hall
        · cases h

theorem readColumns_total {A D : Type} {env : Env} {lib : Lib A D} {search : Str → Option (Str → Bool)}
    {reMatch : Str → Str → Py Bool} {args : ReadArgs D} {n len : Int} (ha : PlainArgs args n) {cols : Cols}
    (hn : (cols.map (·.1)).Nodup) (hlen : maxLen cols = .ok len) (h1 : ∀ k ∈ cols.map (·.1), HeadOk env n (colOf cols k))
    (L : List A) (h2 : L.map some = (sortedKeys cols).map (fun k =>
      ownArray env lib n (n + args.skipAfter) (len - n - args.skipAfter) (colOf cols k)))
    (h3 : ∀ a ∈ L, ∀ b ∈ L, lib.len a = lib.len b) :
    ∃ t, readColumns env lib search reMatch args cols = .ok t := by
  have hmem : ∀ k, k ∈ sortedKeys cols ↔ k ∈ cols.map (·.1) := fun k => (List.perm_insertionSort _ _).mem_iff
  have hsn : (sortedKeys cols).Nodup := (List.perm_insertionSort _ _).nodup_iff.2 hn
  obtain ⟨c1, names, hh, hnl⟩ := headerOf_total hn h1
  obtain ⟨-, g2, -, g4, -⟩ := headerOf_ok hn hh
  have hsk : sortedKeys c1 = sortedKeys cols := by unfold sortedKeys; rw [g2]
  obtain ⟨⟨c2, l⟩, hr⟩ := onColumns_total (fetchWith env (n + 0 + args.skipAfter) (len - 0 - n - args.skipAfter) none)
    (sortedKeys cols) c1 hsn (by
      intro k hk
      have : ownArray env lib n (n + args.skipAfter) (len - n - args.skipAfter) (colOf cols k) ∈ L.map some := by
        rw [h2]; exact List.mem_map_of_mem (f := fun k => ownArray env lib n (n + args.skipAfter) (len - n - args.skipAfter) (colOf cols k)) hk
      obtain ⟨a, _, e⟩ := List.mem_map.1 this
      rw [g4 k ((hmem k).1 hk), add_zero, sub_zero]
      unfold ownArray at e
      cases hs : stepOf (fetchWith env (n + args.skipAfter) (len - n - args.skipAfter) none)
          ((colOf cols k).map (afterHead env n)) with
      | none => rw [hs] at e; cases e
      | some b => exact ⟨b, rfl⟩)
  obtain ⟨e1, -, -⟩ := onColumns_ok _ _ _ _ _ hsn hr
  have hL : l.map lib.ofFetched = L := by
    have : (l.map lib.ofFetched).map some = L.map some := by
      rw [h2]
      have := congrArg (List.map (Option.map lib.ofFetched)) e1
      rw [List.map_map, List.map_map] at this
      rw [List.map_map]
      refine Eq.trans ?_ (this.trans ?_)
      · rfl
      · refine List.map_congr_left fun k hk => ?_
        simp only [Function.comp, ownArray, g4 k ((hmem k).1 hk), add_zero, sub_zero]
    exact List.map_injective_iff.2 (Option.some_injective _) this
  have hll : L.length = cols.length := by
    have := congrArg List.length h2
    simpa [sortedKeys] using this
  unfold readColumns
  rw [hlen, ha.lookup, ha.header, ha.filters, ha.dtypes]
  simp only [findHeader, show ¬((0 : Int) = -1) by decide, if_false, hh, filterKeys, rowMask, List.isEmpty_nil, if_true, hsk, hr,
    applyDtypes, makeTable, hL]
  rw [if_neg (by omega), if_pos (by simpa [List.all_eq_true] using h3)]
  exact ⟨_, rfl⟩

/-- The elements at the places of the columns that are kept. -/
def atKept {B : Type} (keep : Int → Bool) (ks : List Int) (l : List B) : List B :=
  ((ks.zip l).filter fun p => keep p.1).map (·.2)

theorem atKept_eq {B : Type} (keep : Int → Bool) (g : Int → Option B) : ∀ (ks : List Int) (l l' : List B),
    l.map some = ks.map g → l'.map some = (ks.filter keep).map g → l' = atKept keep ks l
  | [], l, l', h, h' => by
    simp only [List.map_nil, List.map_eq_nil_iff, List.filter_nil] at h h'
    subst h h'
    rfl
  | k :: ks, [], l', h, _ => by simp at h
  | k :: ks, a :: l, l', h, h' => by
    simp only [List.map_cons, List.cons.injEq] at h
    unfold atKept
    rw [List.zip_cons_cons, List.filter_cons]
    rw [List.filter_cons] at h'
    cases hk : keep k with
    | false =>
      simp only [hk, Bool.false_eq_true, if_false] at h' ⊢
      exact atKept_eq keep g ks l l' h.2 h'
    | true =>
      simp only [hk, if_true] at h' ⊢
      cases l' with
      | nil => simp at h'
      | cons b l' =>
        simp only [List.map_cons, List.cons.injEq] at h' ⊢
        exact ⟨Option.some_injective _ (h'.1.trans h.1.symm), atKept_eq keep g ks l l' h.2 h'.2⟩

theorem atKept_map {B : Type} (keep : Int → Bool) (g : Int → Option B) : ∀ (ks : List Int) (l : List B),
    l.map some = ks.map g → (atKept keep ks l).map some = (ks.filter keep).map g
  | [], l, _ => by simp [atKept]
  | k :: ks, [], h => by simp at h
  | k :: ks, a :: l, h => by
    simp only [List.map_cons, List.cons.injEq] at h
    have ih := atKept_map keep g ks l h.2
    unfold atKept at ih ⊢
    rw [List.zip_cons_cons, List.filter_cons, List.filter_cons]
    cases hk : keep k <;> simp only [hk, if_true, Bool.false_eq_true, if_false, List.map_cons, ih, h.1]

theorem colOf_kept {env : Env} {fresh : Series} {cells : List Cell} {keep : Int → Bool} {cols cols' : Cols}
    (h : collect env fresh [] cells = .ok cols) (h' : collect env fresh [] (cells.filter fun c => keep c.col) = .ok cols')
    {k : Int} (hk : keep k = true) : colOf cols' k = colOf cols k := by
  have e := ((collect_columns env fresh cells [] (by simp)).1 cols h).2 k
  have e' := ((collect_columns env fresh (cells.filter fun c => keep c.col) [] (by simp)).1 cols' h').2 k
  rw [List.filter_filter, show (cells.filter fun a => decide (a.col = k) && keep a.col) = cells.filter fun c => c.col = k from
    List.filter_congr fun c _ => by
      by_cases hc : c.col = k
      · simp [hc, hk]
      · simp [hc], e] at e'
  exact (Except.ok.inj e').symm

theorem collect_kept {env : Env} {fresh : Series} {cells : List Cell} (keep : Int → Bool) {cols : Cols}
    (h : collect env fresh [] cells = .ok cols) :
    ∃ cols', collect env fresh [] (cells.filter fun c => keep c.col) = .ok cols' := by
  have e := ((collect_columns env fresh cells [] (by simp)).1 cols h).2
  refine (collect_columns env fresh (cells.filter fun c => keep c.col) [] (by simp)).2 fun k => ?_
  rw [List.filter_filter]
  cases hk : keep k with
  | true =>
    refine ⟨colOf cols k, ?_⟩
    rw [show (cells.filter fun a => decide (a.col = k) && keep a.col) = cells.filter fun c => c.col = k from
      List.filter_congr fun c _ => by
        by_cases hc : c.col = k
        · simp [hc, hk]
        · simp [hc]]
    exact e k
  | false =>
    refine ⟨none, ?_⟩
    rw [show (cells.filter fun a => decide (a.col = k) && keep a.col) = [] from
      List.filter_eq_nil_iff.2 fun c _ => by
        by_cases hc : c.col = k
        · simp [hc, hk]
        · simp [hc]]
    rfl

theorem columnsOf_kept (cells : List Cell) (keep : Int → Bool) :
    columnsOf (cells.filter fun c => keep c.col) = (columnsOf cells).filter keep := by
  have hp : ((cells.filter fun c => keep c.col).map (·.col)).dedup.Perm (((cells.map (·.col)).dedup).filter keep) := by
    refine (List.perm_ext_iff_of_nodup (List.nodup_dedup _) ((List.nodup_dedup _).filter _)).mpr fun k => ?_
    simp only [List.mem_dedup, List.mem_map, List.mem_filter]
    constructor
    · rintro ⟨c, ⟨h1, h2⟩, rfl⟩; exact ⟨⟨c, h1, rfl⟩, h2⟩
    · rintro ⟨⟨c, h1, rfl⟩, h2⟩; exact ⟨c, ⟨h1, h2⟩, rfl⟩
  unfold columnsOf
  refine ((List.perm_insertionSort _ _).trans (hp.trans ((List.perm_insertionSort _ _).symm.filter _))).eq_of_pairwise
    (fun a b _ _ h1 h2 => le_antisymm h1 h2) (List.pairwise_insertionSort _ _) ((List.pairwise_insertionSort _ _).filter _)

/-- C99, columns left out: when the cells of some columns are left out (`skip_cols`) and the number of rows stays the
same, the table has the arrays of the other columns as they were, in the same order; with a header of one row also their
names.  Missing: another number of rows, and names over several rows, where it is false (below). -/
theorem C99_left_out_partial {A D : Type} (env : Env) (b : Bool) (shared : List (Option Str)) (o : ConcatOpts) (lib : Lib A D)
    (search : Str → Option (Str → Bool)) (reMatch : Str → Str → Py Bool) (args : ReadArgs D) (n : Int)
    (ha : PlainArgs args n) (cells : List Cell) (keep : Int → Bool) (hne : ∃ c ∈ cells, keep c.col = true)
    (hs : maxSpan (cells.filter fun c => keep c.col) = maxSpan cells) (t : Table A)
    (h : readCells env lib search reMatch args (freshSeries shared b o) cells = .ok t) :
    ∃ t', readCells env lib search reMatch args (freshSeries shared b o) (cells.filter fun c => keep c.col) = .ok t' ∧
      t'.arrays = atKept keep (columnsOf cells) t.arrays ∧ (n = 1 → t'.names = atKept keep (columnsOf cells) t.names) := by
  unfold readCells at h ⊢
  cases hc : collect env (freshSeries shared b o) [] cells with
  | error e => rw [hc] at h; cases h
  | ok cols =>
    rw [hc] at h
    simp only at h
    obtain ⟨cols', hc'⟩ := collect_kept keep hc
    rw [hc']
    simp only
    have C := collected_of_ok hc
    have C' := collected_of_ok hc'
    have hne1 : cells ≠ [] := by rintro rfl; obtain ⟨c, hc, _⟩ := hne; cases hc
    have hne2 : cells.filter (fun c => keep c.col) ≠ [] := by
      obtain ⟨c, hc, hk⟩ := hne
      exact List.ne_nil_of_mem (List.mem_filter.2 ⟨hc, hk⟩)
    have hl := collect_maxLen hc hne1
    have hl' := collect_maxLen hc' hne2
    rw [hs] at hl'
    obtain ⟨r1, r2, r3, r4⟩ := readColumns_ok ha C.nodup hl h
    have hkeep : ∀ k ∈ columnsOf (cells.filter fun c => keep c.col), keep k = true := by
      intro k hk
      rw [columnsOf_kept] at hk
      exact (List.mem_filter.1 hk).2
    have hsub : ∀ k ∈ cols'.map (·.1), keep k = true ∧ k ∈ cols.map (·.1) := by
      intro k hk
      rw [C'.mem_columns] at hk
      refine ⟨hkeep k hk, ?_⟩
      rw [columnsOf_kept] at hk
      rw [C.mem_columns]
      exact (List.mem_filter.1 hk).1
    have hsame : ∀ (B : Type) (g : Option Series → B), (sortedKeys cols').map (fun k => g (colOf cols' k)) =
        ((columnsOf cells).filter keep).map fun k => g (colOf cols k) := by
      intro B g
      rw [C'.sorted, ← columnsOf_kept]
      exact List.map_congr_left fun k hk => by rw [colOf_kept hc hc' (hkeep k hk)]
    rw [C.sorted] at r2 r4
    have hL : (atKept keep (columnsOf cells) t.arrays).map some = ((columnsOf cells).filter keep).map (fun k =>
        ownArray env lib n (n + args.skipAfter) (maxSpan cells - n - args.skipAfter) (colOf cols k)) := atKept_map keep _ _ _ r2
    obtain ⟨t', ht'⟩ := readColumns_total (lib := lib) (search := search) (reMatch := reMatch) ha C'.nodup hl' (by
        intro k hk
        obtain ⟨q1, q2⟩ := hsub k hk
        rw [colOf_kept hc hc' q1]
        exact r1 k q2) (atKept keep (columnsOf cells) t.arrays) (by rw [hsame _ (ownArray env lib n (n + args.skipAfter) (maxSpan cells - n - args.skipAfter)), hL]) (by
        have hm : ∀ a ∈ atKept keep (columnsOf cells) t.arrays, a ∈ t.arrays := by
          intro a ha
          obtain ⟨p, hp, rfl⟩ := List.mem_map.1 ha
          exact (List.of_mem_zip (List.mem_filter.1 hp).1).2
        exact fun a ha b hb => r3 a (hm a ha) b (hm b hb))
    refine ⟨t', ht', ?_, fun h1 => ?_⟩
    · obtain ⟨-, s2, -, -⟩ := readColumns_ok ha C'.nodup hl' ht'
      exact atKept_eq keep _ _ _ _ r2 (by rw [s2, hsame _ (ownArray env lib n (n + args.skipAfter) (maxSpan cells - n - args.skipAfter))])
    · obtain ⟨-, -, -, s4⟩ := readColumns_ok ha C'.nodup hl' ht'
      exact atKept_eq keep _ _ _ _ (r4 h1) (by
        rw [s4 h1, hsame _ (fun s => (stepOf (firstText env 0) s).map orUnnamed)])

/-- C99, own cells: two sheets with the same cells in a column, and with the same number of rows, have the same array for
that column, whatever the other columns are; with a header of one row also the same name. -/
theorem C99_own_cells {A D : Type} (env : Env) (b : Bool) (shared : List (Option Str)) (o : ConcatOpts) (lib : Lib A D)
    (search : Str → Option (Str → Bool)) (reMatch : Str → Str → Py Bool) (args : ReadArgs D) (n : Int)
    (ha : PlainArgs args n) (cells cells' : List Cell) (k : Int) (hk : colCells cells' k = colCells cells k)
    (hs : maxSpan cells' = maxSpan cells) (t t' : Table A)
    (h : readCells env lib search reMatch args (freshSeries shared b o) cells = .ok t)
    (h' : readCells env lib search reMatch args (freshSeries shared b o) cells' = .ok t')
    (j j' : Nat) (hj : (columnsOf cells)[j]? = some k) (hj' : (columnsOf cells')[j']? = some k) :
    t'.arrays[j']? = t.arrays[j]? ∧ (n = 1 → t'.names[j']? = t.names[j]?) := by
  have key : ∀ {cells : List Cell} {t : Table A} {j : Nat},
      readCells env lib search reMatch args (freshSeries shared b o) cells = .ok t → (columnsOf cells)[j]? = some k →
      ∃ c : Option Series, addRun env (freshSeries shared b o) none (colCells cells k) = .ok c ∧
        t.arrays[j]? = ownArray env lib n (n + args.skipAfter) (maxSpan cells - n - args.skipAfter) c ∧
        (n = 1 → t.names[j]? = (stepOf (firstText env 0) c).map orUnnamed) := by
    intro cells t j h hj
    unfold readCells at h
    cases hc : collect env (freshSeries shared b o) [] cells with
    | error e => rw [hc] at h; cases h
    | ok cols =>
      rw [hc] at h
      simp only at h
      have C := collected_of_ok hc
      have hne : cells ≠ [] := by rintro rfl; simp [columnsOf] at hj
      obtain ⟨-, r2, -, r4⟩ := readColumns_ok ha C.nodup (collect_maxLen hc hne) h
      rw [C.sorted] at r2 r4
      have get : ∀ {B : Type} {l : List B} {g : Int → Option B}, l.map some = (columnsOf cells).map g → l[j]? = g k := by
        intro B l g e
        have := congrArg (·[j]?) e
        simp only [List.getElem?_map, hj, Option.map_some] at this
        cases hl : l[j]? with
        | none => rw [hl] at this; cases this
        | some x => rw [hl] at this; simpa using this
      exact ⟨colOf cols k, ((collect_columns env _ cells [] (by simp)).1 cols hc).2 k, get r2, fun h1 => get (r4 h1)⟩
  obtain ⟨c, e1, e2, e3⟩ := key h hj
  obtain ⟨c', f1, f2, f3⟩ := key h' hj'
  rw [hk, e1] at f1
  injection f1 with f1
  subst f1
  rw [hs] at f2
  exact ⟨f2.trans e2.symm, fun h1 => (f3 h1).trans (e3 h1).symm⟩

/-- Three columns; the same without the middle one. -/
def exThree : List Cell := [tx 0 1 ['a'], tx 0 2 ['b'], tx 0 4 ['c'], nm 1 1 5, nm 1 4 6, nm 2 1 7, tx 2 2 ['z']]

example : readCells demoEnv exLib (fun _ => none) (fun _ _ => .ok false) { header := .rows 1 }
      (freshSeries [] true ⟨false, false, [], 6⟩) exThree =
    .ok ⟨[['a'], ['b'], ['c']], [.arr ⟨.i8, [some (.i8 5), some (.i8 7)]⟩, .arr ⟨.utf8, [none, some (.str ['z'])]⟩,
      .arr ⟨.i8, [some (.i8 6), none]⟩]⟩ ∧
    readCells demoEnv exLib (fun _ => none) (fun _ _ => .ok false) { header := .rows 1 }
      (freshSeries [] true ⟨false, false, [], 6⟩) (exThree.filter fun c => c.col != 2) =
    .ok ⟨[['a'], ['c']], [.arr ⟨.i8, [some (.i8 5), some (.i8 7)]⟩, .arr ⟨.i8, [some (.i8 6), none]⟩]⟩ ∧
    atKept (· != 2) (columnsOf exThree) [['a'], ['b'], ['c']] = [['a'], ['c']] := by
  decide +kernel

/-- C99 is violated for the rows: the column that starts at the top is left out, and the other column loses its last
cells, because the rows are counted from the first cell of a column. -/
theorem C99_rows_finding :
    (readCells demoEnv exLib (fun _ => none) (fun _ _ => .ok false) ({} : ReadArgs DType)
      (freshSeries [] true ⟨false, false, [], 6⟩) [nm 0 0 1, nm 2 1 5, nm 3 0 2, nm 3 1 6]).map (·.arrays) =
    .ok [.arr ⟨.i8, [some (.i8 1), none, none, some (.i8 2)]⟩, .arr ⟨.i8, [none, none, some (.i8 5), some (.i8 6)]⟩] ∧
    (readCells demoEnv exLib (fun _ => none) (fun _ _ => .ok false) ({} : ReadArgs DType)
      (freshSeries [] true ⟨false, false, [], 6⟩)
      ([nm 0 0 1, nm 2 1 5, nm 3 0 2, nm 3 1 6].filter fun c => c.col != 0)).map (·.arrays) =
    .ok [.arr ⟨.utf8, [none, none]⟩] := by
  decide +kernel

/-- C99 is violated for the names of a header of two rows: the text of the column left out was part of the name of the
next one. -/
theorem C99_names_finding :
    (readCells demoEnv exLib (fun _ => none) (fun _ _ => .ok false) ({ header := .rows 2 } : ReadArgs DType)
      (freshSeries [] true ⟨false, false, [], 6⟩)
      [tx 0 0 ['g'], tx 1 0 ['a'], tx 1 1 ['b'], nm 2 0 1, nm 2 1 2, tx 0 2 ['h'], tx 1 2 ['c'], nm 2 2 3]).map (·.names) =
    .ok [['g', ',', ' ', 'a'], ['g', ',', ' ', 'b'], ['h', ',', ' ', 'c']] ∧
    (readCells demoEnv exLib (fun _ => none) (fun _ _ => .ok false) ({ header := .rows 2 } : ReadArgs DType)
      (freshSeries [] true ⟨false, false, [], 6⟩)
      ([tx 0 0 ['g'], tx 1 0 ['a'], tx 1 1 ['b'], nm 2 0 1, nm 2 1 2, tx 0 2 ['h'], tx 1 2 ['c'], nm 2 2 3].filter
        fun c => c.col != 0)).map (·.names) =
    .ok [['b'], ['h', ',', ' ', 'c']] := by
  decide +kernel

end Rxls
