import Verif.Lemmas.SharedDates
import Verif.Props.Chunk
import Verif.Props.Resolve

/-! # Properties C30 and C68: when dates and shared strings in one column raise -/

namespace Rxls

/-- C30.  The exact condition.  Joining chunks gives an array, of the decided type, unless datetime resolution is on and
the column has both a moment and references to shared strings; then it raises `ArrowNotImplementedError`. -/
theorem C30_exact (env : Env) (o : ConcatOpts) (cs : List Chunk) (rs : Runs) (h : HoldsRuns cs rs) (hne : cs ≠ []) :
    (o.confDt = true ∧ (∃ r ∈ rs, r.1 = .temp) ∧ (∃ c ∈ cs, ¬ c.Resolved) →
      (concatenate env o cs 0 0 none).2 = .error .arrowNotImplemented) ∧
    (¬ (o.confDt = true ∧ (∃ r ∈ rs, r.1 = .temp) ∧ (∃ c ∈ cs, ¬ c.Resolved)) →
      ∃ a, (concatenate env o cs 0 0 none).2 = .ok a ∧ a.dtype = decideType env o rs) := by
  constructor
  · rintro ⟨hd, ⟨r, hr, hk⟩, c, hc, hn⟩
    obtain ⟨as, h1, h2, h3⟩ := concatenate_whole env o h
    rw [h3]
    refine aConcat_raw env o as hd ?_ ?_
    · rw [← h2] at hr
      obtain ⟨a, ha, rfl⟩ := List.mem_map.mp hr
      exact List.any_eq_true.mpr ⟨a, ha, by simpa [ACh.run] using hk⟩
    · by_contra hno
      have key : ∀ (cs : List Chunk) (as : List ACh), List.Forall₂ Abs cs as → (¬ ∃ l, ACh.str l true ∈ as) →
          ∀ c ∈ cs, c.Resolved := by
        intro cs as h1
        induction h1 with
        | nil => simp
        | @cons c a cs as hca _ ih =>
          intro hn d hd
          rcases List.mem_cons.mp hd with rfl | hd
          · exact notRaw.resolved hca fun l hl => hn ⟨l, by simp [hl]⟩
          · exact ih (fun ⟨l, hl⟩ => hn ⟨l, by simp [hl]⟩) d hd
      exact hn (key cs as h1 hno c hc)
  · intro hn
    refine C30_type_partial env o cs rs h hne fun hd ht c hc => ?_
    by_contra hc'
    exact hn ⟨hd, ht, c, hc, hc'⟩

example : (concatenate demoEnv exDt [exMs [5], exStrs [some ['D', '1']]] 0 0 none).2 =
      .ok ⟨.ts, [some (.ts 5), some (.ts 86400000)]⟩ ∧
    (concatenate demoEnv exDt [exNums [5], exShared [0] [some ['D', '1']]] 0 0 none).2 =
      .ok ⟨.utf8, [some (.str ['5']), some (.str ['D', '1'])]⟩ ∧
    (concatenate demoEnv exDt [exShared [0] [some ['D', '1']], exMs [5]] 0 0 none).2 =
      .error .arrowNotImplemented := by
  decide +kernel

/-- The texts of column `k` are all references to the shared strings, as in every workbook that has been saved by a
spreadsheet program. -/
def SharedTexts (env : Env) (b : Bool) (shared : List (Option Str)) (cells : List Cell) (k : Int) : Prop :=
  ∀ c ∈ cells, c.col = k → ∀ s, rawValue env b shared c.xdt c.val = some (some (.str s)) → c.xdt = 0x11

/-- Finding, C68 fails in general.  With temporal resolution, a call of `read` without lookup, header and filters raises
`ArrowNotImplementedError` whenever one column has both a moment and a text (and the texts are shared strings), whatever
the texts say. -/
theorem C68_shared_texts_raise {A D : Type} (env : Env) (b : Bool) (shared : List (Option Str)) (o : ConcatOpts)
    (hd : o.confDt = true) (lib : Lib A D) (search : Str → Option (Str → Bool)) (reMatch : Str → Str → Py Bool)
    (args : ReadArgs D) (cells : List Cell) (hne : cells ≠ []) (hv : PresentCells env b shared cells)
    (hlk : args.lookup = .none) (hhd : args.header = .rows 0) (hfl : args.filters = .none)
    (off len : Nat) (hoff : (off : Int) = args.skipAfter) (hlen : (len : Int) = maxSpan cells - off) (hpos : 0 < len)
    (rows : Int → List (Option Val)) (hrows : ∀ k, rows k = window (colValues env b shared cells k) off len)
    (k : Int) (hk : k ∈ columnsOf cells) (hs : SharedTexts env b shared cells k)
    (hts : ∃ n, some (.ts n) ∈ rows k) (htx : ∃ s, some (.str s) ∈ rows k)
    (hother : ∀ j ∈ columnsOf cells, j ≠ k → Datable o (inlineColumn cells j) (colValues env b shared cells j)) :
    readCells env lib search reMatch args (freshSeries shared b o) cells = .error .arrowNotImplemented := by
  obtain ⟨cols, e, hc⟩ := collect_ok env b shared o cells hv.valid
  have hcell : ∀ q ∈ cols, colCells cells q.1 ≠ [] := by
    intro q hq h0
    obtain ⟨c, hcc, he⟩ := (hc.keys q.1).mp (List.mem_map_of_mem hq)
    have : c ∈ colCells cells q.1 := List.mem_filter.mpr ⟨hcc, by simp [he]⟩
    rw [h0] at this
    simp at this
  -- the columns by themselves
  have hl : ∀ q ∈ cols, q.2.len = spanOf cells q.1 := by
    have h0 : Collected env (freshSeries shared b o) cols cells := hc
    intro q hq
    obtain ⟨s, s', h1, h2, h3, h4, h5⟩ := built_column env b shared o (colCells cells q.1) (colCells_present hv q.1).valid
    obtain ⟨i1, _⟩ := addAll_inv _ (fresh_inv env shared b o) h1
    rw [List.nil_append] at i1
    have := hc.each q hq
    rw [h1] at this
    injection this with this
    subst this
    unfold Series.len spanOf
    rw [i1.eRow, i1.sRow]
    cases hcc : colCells cells q.1 with
    | nil => exact absurd hcc (hcell q hq)
    | cons c cs => simp only [List.head?_cons]; omega
  have hbad : ∀ q ∈ cols, q.1 = k → (fetchWith env off len none q.2).2 = .error .arrowNotImplemented := by
    rintro q hq rfl
    obtain ⟨s, s', h1, h2, h3, h4, h5⟩ := built_column env b shared o (colCells cells q.1) (colCells_present hv q.1).valid
    obtain ⟨i1, k1⟩ := addAll_inv _ (fresh_inv env shared b o) h1
    rw [List.nil_append] at i1
    obtain ⟨⟨gs, g1, g2, _, _⟩, g3, _⟩ := flush_inv i1 h2
    have hb : s.binary = b := k1.binary
    have hsh : s.shared = shared := k1.shared
    rw [hb, hsh] at g1
    have := hc.each q hq
    rw [h1] at this
    injection this with this
    subst this
    have hno := stretches_noTexts g1
      (fun x v hm => rawColumn_present (colCells_present hv q.1) (by rw [← g2]; exact hm)) (by
        intro x v t hm ht
        rw [g2] at hm
        unfold rawColumn at hm
        obtain ⟨r, _, hr⟩ := List.mem_map.mp hm
        obtain ⟨c, hcc, rfl, rfl⟩ := rawAt_mem hr
        obtain ⟨hc1, hc2⟩ := List.mem_filter.mp hcc
        exact hs c hc1 (by simpa using hc2) t ht)
    have := concatenate_mixed env s'.opts (by rw [h4]; exact hd) h3 hno off len hpos
      (by rw [hrows] at hts; exact hts) (by rw [hrows] at htx; exact htx)
    unfold fetchWith Series.toArrow
    rw [h2]
    have hne' : s'.chunks ≠ [] := fun h0 => hcell q hq (h5.mp h0)
    simp only [List.isEmpty_iff, hne', if_false]
    generalize concatenate env s'.opts s'.chunks (off : Int) (len : Int) none = r at this ⊢
    obtain ⟨r1, r2⟩ := r
    simp only at this
    subst this
    rfl
  have hgood : ∀ q ∈ cols, q.1 ≠ k → ∃ a, (fetchWith env off len none q.2).2 = .ok a := by
    intro q hq hqk
    obtain ⟨s, h1, h2, h3⟩ := built_stands env b shared o _ _
      (hother q.1 ((hc.mem_columns q.1).mp (List.mem_map_of_mem hq)) hqk)
      (fun h c hc => by simpa using List.all_eq_true.mp h c hc) (colCells_present hv q.1) (hcell q hq)
    have := hc.each q hq
    rw [h1] at this
    injection this with this
    subst this
    obtain ⟨s', h', _⟩ := h2.fetch off len none hpos
    exact ⟨_, by unfold fetchWith; rw [h']⟩
  have hcol := onColumns_error (fetchWith env off len none) .arrowNotImplemented (sortedKeys cols) cols
    ((List.perm_insertionSort _ _).nodup_iff.mpr hc.nodup) hc.nodup (by
      intro j hj
      have hj' : j ∈ cols.map (·.1) := by simpa [sortedKeys] using hj
      obtain ⟨q, hq, rfl⟩ := List.mem_map.mp hj'
      refine ⟨q, hq, rfl, ?_⟩
      by_cases hqk : q.1 = k
      · exact .inl (hbad q hq hqk)
      · exact .inr (hgood q hq hqk)) (by
      obtain ⟨q, hq, rfl⟩ := List.mem_map.mp ((hc.mem_columns k).mpr hk)
      refine ⟨q, hq, ?_, hbad q hq rfl⟩
      simpa [sortedKeys] using ⟨_, hq⟩)
  unfold readCells readColumns
  rw [e]
  simp only
  rw [hc.maxLen hl hne, hlk, hhd, hfl]
  simp only [findHeader, headerOf, filterKeys, rowMask]
  have e1 : (0 : Int) + 0 + args.skipAfter = off := by omega
  have e2 : maxSpan cells - 0 - 0 - args.skipAfter = len := by omega
  simp only [ne_eq, not_true_eq_false, if_false, List.isEmpty_nil, if_true, e1, e2, hcol]
  rfl

/-- A column of numbers, and one with a date and a text: the hypotheses hold. -/
example : readCells demoEnv exLib (fun _ => none) (fun _ _ => .ok false) {}
    (freshSeries [some ['D', '1']] true ⟨true, true, [], 6⟩) [nm 0 0 5, dt 0 1 25570, sh 1 1 0] =
      .error .arrowNotImplemented := by
  refine C68_shared_texts_raise demoEnv true [some ['D', '1']] ⟨true, true, [], 6⟩ rfl exLib _ _ {} _ (by simp) ?_ rfl
    rfl rfl 0 2 rfl (by decide +kernel) (by decide) _ (fun _ => rfl) 1 (by decide +kernel) ?_ ?_ ?_ ?_
  · intro c hc
    simp only [List.mem_cons, List.not_mem_nil, or_false] at hc
    rcases hc with rfl | rfl | rfl
    · exact ⟨.f8 (.fin 5), by decide +kernel⟩
    · exact ⟨.ts 86400000, by decide +kernel⟩
    · exact ⟨.str ['D', '1'], by decide +kernel⟩
  · intro c hc hk s hs
    simp only [List.mem_cons, List.not_mem_nil, or_false] at hc
    rcases hc with rfl | rfl | rfl
    · exact absurd hk (by decide)
    · have : rawValue demoEnv true [some ['D', '1']] (dt 0 1 25570).xdt (dt 0 1 25570).val =
        some (some (.ts 86400000)) := by decide +kernel
      rw [this] at hs
      simp at hs
    · rfl
  · exact ⟨86400000, by decide +kernel⟩
  · exact ⟨['D', '1'], by decide +kernel⟩
  · intro j hj hne
    have h0 : columnsOf [nm 0 0 5, dt 0 1 25570, sh 1 1 0] = [0, 1] := by decide +kernel
    rw [h0] at hj
    have : j = 0 := by simp at hj; omega
    subst this
    have h1 : colValues demoEnv true [some ['D', '1']] [nm 0 0 5, dt 0 1 25570, sh 1 1 0] 0 = [some (.f8 (.fin 5))] := by
      decide +kernel
    rw [h1]
    exact fun _ h => absurd h (by decide)

end Rxls
