import Verif.Lemmas.ReadTable
import Verif.Lemmas.ConcatType

/-! # Moments and references to shared strings in one column -/

namespace Rxls

theorem mapPy_raw (env : Env) (o : ConcatOpts) : ∀ as : List ACh, (∃ l, ACh.str l true ∈ as) →
    mapPy (aStrTmp env o) (as.map aNumTmp) = .error .arrowNotImplemented
  | [], h => by simp at h
  | a :: as, h => by
    rw [List.map_cons, mapPy]
    by_cases ha : ∃ l, a = .str l true
    · obtain ⟨l, rfl⟩ := ha
      simp [aNumTmp, aStrTmp]
    · have ih := mapPy_raw env o as (by
        obtain ⟨l, hl⟩ := h
        rcases List.mem_cons.mp hl with h1 | h1
        · exact absurd ⟨l, h1.symm⟩ ha
        · exact ⟨l, h1⟩)
      have : ∃ r, aStrTmp env o (aNumTmp a) = .ok r := by
        cases a with
        | str l raw =>
          cases raw with
          | true => exact absurd ⟨l, rfl⟩ ha
          | false =>
            simp only [aNumTmp, aStrTmp, Bool.false_eq_true, if_false]
            split
            · exact ⟨_, rfl⟩
            · split
              · split <;> exact ⟨_, rfl⟩
              · exact ⟨_, rfl⟩
        | _ => exact ⟨_, rfl⟩
      obtain ⟨r, hr⟩ := this
      rw [hr, ih]

theorem aConcat_raw (env : Env) (o : ConcatOpts) (as : List ACh) (hd : o.confDt = true)
    (ht : (as.any fun a => a.cls == .temp) = true) (hs : ∃ l, ACh.str l true ∈ as) :
    aConcat env o as = .error .arrowNotImplemented := by
  unfold aConcat aConvert
  simp only [ht, hd, if_true, mapPy_raw env o as hs]

/-- The chunk has no texts of its own. -/
def Chunk.NoTexts (c : Chunk) : Prop := ∀ l, c.data ≠ .strs l

theorem noTexts_pred : TakePred Chunk.NoTexts where
  take c ix c' h e := by
    rcases take_data e with ⟨l, l', h1, h2, h3⟩ | ⟨l, l', h1, h2, h3, h4⟩ | ⟨h1, h2⟩
    · exact absurd h1 (h l)
    · intro l; rw [h2]; simp
    · exact h1
  nulls n := by intro l; simp [Chunk.nulls]

theorem NoTexts.raw {c : Chunk} {a : ACh} (h : c.NoTexts) (ha : Abs c a) : ∀ l, a ≠ .str l false := by
  intro l
  cases ha with
  | str l sz sr => exact absurd rfl (h l)
  | _ => simp

/-- A window with a moment and a text, in a column whose texts are all shared. -/
theorem concatenate_mixed (env : Env) (o : ConcatOpts) (hd : o.confDt = true) {cs : List Chunk} {col : List (Option Val)}
    (h : Column cs col) (hg : ∀ c ∈ cs, c.NoTexts) (off len : Nat) (hl : 0 < len)
    (ht : ∃ n, some (.ts n) ∈ window col off len) (hs : ∃ s, some (.str s) ∈ window col off len) :
    (concatenate env o cs off len none).2 = .error .arrowNotImplemented := by
  obtain ⟨t, ht', hc⟩ := takeOver_window cs col h off len hl
  obtain ⟨rs, hrs, hcells⟩ := hc.runs
  obtain ⟨as, ha, har, e⟩ := concatenate_taken env o (.inr (.inl (by omega))) ht' hrs
  have hflat : as.flatMap ACh.cells = window col off len := by rw [← hcells, ← har, runs_cells]
  have hno := forall2_left (P := Chunk.NoTexts) (Q := fun a => ∀ l, a ≠ .str l false) ha
    (takeOver_pred noTexts_pred hg ht') fun _ _ hp hab => NoTexts.raw hp hab
  rw [e]
  refine aConcat_raw env o as hd ?_ ?_
  · obtain ⟨n, hn⟩ := ht
    rw [← hflat, List.mem_flatMap] at hn
    obtain ⟨a, ha, hm⟩ := hn
    refine List.any_eq_true.mpr ⟨a, ha, ?_⟩
    cases a with
    | tmp l => rfl
    | nul m => simp [ACh.cells] at hm
    | str l r => simp [ACh.cells] at hm
    | num l => simp [ACh.cells] at hm
  · obtain ⟨s, hn⟩ := hs
    rw [← hflat, List.mem_flatMap] at hn
    obtain ⟨a, ha, hm⟩ := hn
    cases a with
    | str l r =>
      cases r with
      | true => exact ⟨l, ha⟩
      | false => exact absurd rfl (hno _ ha l)
    | tmp l => simp [ACh.cells] at hm
    | nul m => simp [ACh.cells] at hm
    | num l => simp [ACh.cells] at hm

/-- The same call on several columns: the first failure is the result. -/
theorem onColumns_error {α : Type} (f : Series → Series × Py α) (E : PyErr) : ∀ (ks : List Int) (cols : Cols),
    ks.Nodup → (cols.map (·.1)).Nodup →
    (∀ k ∈ ks, ∃ q ∈ cols, q.1 = k ∧ ((f q.2).2 = .error E ∨ ∃ a, (f q.2).2 = .ok a)) →
    (∃ q ∈ cols, q.1 ∈ ks ∧ (f q.2).2 = .error E) → onColumns f cols ks = .error E
  | [], _, _, _, _, h => by simp at h
  | k :: ks, cols, hk, hc, h1, h2 => by
    obtain ⟨q, hq, rfl, hf⟩ := h1 k (by simp)
    have hfind : (cols.find? fun x => x.1 = q.1) = some q := by
      cases hf : cols.find? fun x => x.1 = q.1 with
      | none =>
        rw [List.find?_eq_none] at hf
        exact absurd (decide_eq_true rfl) (hf q hq)
      | some x =>
        have h1 : x.1 = q.1 := by simpa using List.find?_some hf
        have h2 := List.mem_of_find?_eq_some hf
        rw [List.inj_on_of_nodup_map hc h2 hq h1]
    rw [onColumns, onColumn, hfind]
    simp only
    rcases hf with hf | ⟨a, hf⟩
    · obtain ⟨s', r, e⟩ : ∃ s' r, f q.2 = (s', r) := ⟨_, _, rfl⟩
      rw [e] at hf ⊢
      simp only at hf
      subst hf
      rfl
    · obtain ⟨s', r, e⟩ : ∃ s' r, f q.2 = (s', r) := ⟨_, _, rfl⟩
      rw [e] at hf ⊢
      simp only at hf
      subst hf
      simp only
      have hnk : q.1 ∉ ks := (List.nodup_cons.mp hk).1
      have hkeys : (cols.map fun x => if x.1 = q.1 then (x.1, s') else x).map (·.1) = cols.map (·.1) := by
        rw [List.map_map]
        apply List.map_congr_left
        intro x _
        simp only [Function.comp]
        split <;> rfl
      have keep : ∀ x ∈ cols, x.1 ∈ ks → x ∈ (cols.map fun x => if x.1 = q.1 then (x.1, s') else x) := by
        intro x hx hxk
        refine List.mem_map.mpr ⟨x, hx, ?_⟩
        rw [if_neg]
        intro he
        exact hnk (he ▸ hxk)
      rw [onColumns_error f E ks _ (List.nodup_cons.mp hk).2 (by rw [hkeys]; exact hc) ?_ ?_]
      · intro k hk'
        obtain ⟨x, hx, rfl, hx2⟩ := h1 k (by simp [hk'])
        exact ⟨x, keep x hx hk', rfl, hx2⟩
      · obtain ⟨x, hx, hxk, hxe⟩ := h2
        rcases List.mem_cons.mp hxk with h0 | h0
        · have := List.inj_on_of_nodup_map hc hx hq h0
          subst this
          rw [e] at hxe
          simp at hxe
        · exact ⟨x, keep x hx h0, h0, hxe⟩

theorem makeChunk_noTexts {env : Env} {b : Bool} {shared : List (Option Str)} {x : Nat} {vals : List Raw} {c : Chunk}
    (h : makeChunk env b shared x vals = .ok c) (hx : x = 0x11) : c.NoTexts := by
  subst hx
  unfold makeChunk at h
  rw [if_pos (by rfl)] at h
  have hb : hasBit 0x11 REPR_SHARED = true := rfl
  rw [hb] at h
  cases b with
  | true =>
    simp only [if_true, Chunk.xlsbStrings] at h
    split at h
    · injection h with h; subst h; intro l; simp
    · simp at h
  | false =>
    simp only [Bool.false_eq_true, if_false, Chunk.xlsxStrings, if_true] at h
    split at h
    · injection h with h; subst h; intro l; simp
    · simp at h

theorem stretches_noTexts {env : Env} {b : Bool} {shared : List (Option Str)} {gs : List Stretch} {cs : List Chunk}
    (h : List.Forall₂ (Stretch.Is env b shared) gs cs)
    (hv : ∀ x v, some (x, v) ∈ gs.flatMap Stretch.rows → ∃ y, rawValue env b shared x v = some (some y))
    (ht : ∀ x v s, some (x, v) ∈ gs.flatMap Stretch.rows → rawValue env b shared x v = some (some (.str s)) → x = 0x11) :
    ∀ c ∈ cs, c.NoTexts := by
  induction h with
  | nil => simp
  | @cons g c gs cs hg _ ih =>
    have ih := ih (fun x v hm => hv x v (by rw [List.flatMap_cons]; exact List.mem_append_right _ hm))
      (fun x v s hm => ht x v s (by rw [List.flatMap_cons]; exact List.mem_append_right _ hm))
    intro d hd
    rcases List.mem_cons.mp hd with rfl | hd
    · cases g with
      | gap n => obtain ⟨_, rfl⟩ := hg; intro l; simp [Chunk.nulls]
      | run x vals =>
        obtain ⟨hne, hm⟩ := hg
        have hin : ∀ v ∈ vals, some (x, v) ∈ (Stretch.run x vals :: gs).flatMap Stretch.rows := fun v hvv => by
          rw [List.flatMap_cons]
          exact List.mem_append_left _ (List.mem_map_of_mem (f := fun v => some (x, v)) hvv)
        by_cases hx : x = 0x11
        · exact makeChunk_noTexts hm hx
        · obtain ⟨c', h1, h2⟩ := run_holds (env := env) (b := b) (shared := shared) (x := x) hne (fun v hvv => by
            obtain ⟨y, hy⟩ := hv x v (hin v hvv)
            rw [hy]; rfl)
          rw [hm] at h1
          injection h1 with h1
          subst h1
          obtain ⟨a, ha, _, hcells⟩ := h2.1.abs
          intro l hl
          cases ha with
          | str l sz sr =>
            obtain ⟨v, vs, rfl⟩ := List.exists_cons_of_ne_nil hne
            obtain ⟨y, hy⟩ := hv x v (hin v (by simp))
            cases l with
            | nil => simp [ACh.cells] at hcells
            | cons z l =>
              simp only [ACh.cells, List.map_cons, List.cons.injEq, rowValue, hy] at hcells
              obtain ⟨hz, _⟩ := hcells
              cases z with
              | none => simp at hz
              | some z =>
                simp only [Option.map_some, Option.join_some, Option.some.injEq] at hz
                subst hz
                exact hx (ht x v z (hin v (by simp)) hy)
          | _ => simp at hl
    · exact ih d hd

end Rxls
