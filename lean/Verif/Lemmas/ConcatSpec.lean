import Verif.Lemmas.Purity
import Verif.Spec.Concat

/-! # Result of concatenate in terms of runs -/

namespace Rxls

def ACh.run (a : ACh) : Cls × List (Option Val) := (a.cls, a.cells)

theorem HoldsRuns.abs {cs : List Chunk} {rs : Runs} (h : HoldsRuns cs rs) :
    ∃ as, List.Forall₂ Abs cs as ∧ as.map ACh.run = rs := by
  induction h with
  | nil => exact ⟨[], .nil, rfl⟩
  | @cons c r cs rs h _ ih =>
    obtain ⟨as, h1, h2⟩ := ih
    obtain ⟨a, ha, hk, hv⟩ := h.1.abs
    refine ⟨a :: as, .cons ha h1, ?_⟩
    rw [List.map_cons, h2, ACh.run, hk, hv]

theorem HoldsRuns.sound {cs : List Chunk} {rs : Runs} (h : HoldsRuns cs rs) : Sound cs := by
  induction h with
  | nil => intro c hc; simp at hc
  | cons h _ ih =>
    intro c hc
    rcases List.mem_cons.mp hc with rfl | hc
    · exact ⟨_, _, h⟩
    · exact ih c hc

theorem HoldsRuns.column {cs : List Chunk} {rs : Runs} (h : HoldsRuns cs rs) : Column cs rs.cells := by
  induction h with
  | nil => exact .nil
  | cons h _ ih => exact .cons h ih

theorem Column.runs {cs : List Chunk} {col} (h : Column cs col) : ∃ rs, HoldsRuns cs rs ∧ Runs.cells rs = col := by
  induction h with
  | nil => exact ⟨[], .nil, rfl⟩
  | @cons c cs k vs rest h _ ih =>
    obtain ⟨rs, h1, h2⟩ := ih
    exact ⟨(k, vs) :: rs, .cons h h1, by simp [Runs.cells] at h2 ⊢; exact h2⟩

/-- Un-windowed concatenation. -/
theorem concatSlots_runs (env : Env) (o : ConcatOpts) {cs : List Chunk} {as : List ACh}
    (h : List.Forall₂ Abs cs as) :
    (concatSlots env o (cs.map fun c => ⟨c, none⟩)).2 = aConcat env o as :=
  (concatSlots_abs env o _ as (lift_slots h)).2

/-! ## Casts -/

theorem castVals_nulls (env : Env) (dt : DType) : ∀ (l r : List (Option Val)), castVals env dt l = .ok r →
    List.Forall₂ (fun a b : Option Val => a.isNone = b.isNone) l r
  | [], r, h => by
    have : r = [] := by
      have : (Except.ok [] : Py (List (Option Val))) = .ok r := h
      injection this with this; exact this.symm
    subst this; exact .nil
  | v :: l, r, h => by
    rw [castVals_cons] at h
    cases v with
    | none =>
      simp only at h
      cases h2 : castVals env dt l with
      | error e => rw [h2] at h; simp at h
      | ok r' =>
        rw [h2] at h; injection h with h; subst h
        exact .cons rfl (castVals_nulls env dt l r' h2)
    | some w =>
      simp only at h
      cases h1 : castVal env dt w with
      | error e => rw [h1] at h; simp [Except.map] at h
      | ok x =>
        rw [h1] at h
        simp only [Except.map] at h
        cases h2 : castVals env dt l with
        | error e => rw [h2] at h; simp at h
        | ok r' =>
          rw [h2] at h; injection h with h; subst h
          exact .cons rfl (castVals_nulls env dt l r' h2)

theorem mapPy_nulls (env : Env) (dt : DType) : ∀ (as : List ACh) (r : List (List (Option Val))),
    mapPy (fun a => castVals env dt a.cells) as = .ok r →
    List.Forall₂ (fun a b : Option Val => a.isNone = b.isNone) (as.flatMap ACh.cells) r.flatten ∧ as.length = r.length
  | [], r, h => by
    rw [mapPy] at h; injection h with h; subst h; exact ⟨.nil, rfl⟩
  | a :: as, r, h => by
    rw [mapPy] at h
    cases h1 : castVals env dt a.cells with
    | error e => rw [h1] at h; simp at h
    | ok v =>
      rw [h1] at h
      simp only at h
      cases h2 : mapPy (fun a => castVals env dt a.cells) as with
      | error e => rw [h2] at h; simp at h
      | ok r' =>
        rw [h2] at h; injection h with h; subst h
        obtain ⟨i1, i2⟩ := mapPy_nulls env dt as r' h2
        refine ⟨?_, by simp [i2]⟩
        rw [List.flatMap_cons, List.flatten_cons]
        exact List.rel_append (castVals_nulls env dt _ _ h1) i1

/-- Every string of a run is present. -/
def ACh.full : ACh → Bool
  | .str l _ => l.all Option.isSome
  | _ => true

theorem aNumeric_length (env : Env) : ∀ (l : List (Option Str)) (r : List F64), aNumeric env l = .ok r →
    r.length = l.length
  | [], r, h => by rw [aNumeric] at h; injection h with h; subst h; rfl
  | none :: l, r, h => by
    rw [aNumeric] at h
    cases h2 : aNumeric env l with
    | error e => rw [h2] at h; simp at h
    | ok r' => rw [h2] at h; injection h with h; subst h; simp [aNumeric_length env l r' h2]
  | some s :: l, r, h => by
    rw [aNumeric] at h
    cases h1 : env.parseF8 s with
    | none => rw [h1] at h; simp at h
    | some x =>
      rw [h1] at h
      simp only at h
      cases h2 : aNumeric env l with
      | error e => rw [h2] at h; simp at h
      | ok r' => rw [h2] at h; injection h with h; subst h; simp [aNumeric_length env l r' h2]

theorem mfLoop_length (sp : Str → Option Str → Option Int) (arr : List (Option Str)) : ∀ (fm : List Str) (r : List Int),
    r.length = arr.length → (mfLoop sp arr fm r).1.length = arr.length
  | [], r, h => h
  | f :: fm, r, h => by
    have : (whereZero r (strptimeArr sp arr f)).length = arr.length := by
      simp [whereZero, strptimeArr, h]
    rw [mfLoop]
    split
    · exact this
    · exact mfLoop_length sp arr fm _ this

theorem mfStrptime_length {sp : Str → Option Str → Option Int} {d : List Str} {l : List (Option Str)}
    {fm : List Str} {b : Bool} {r : List Int} (h : mfStrptime sp d l fm b = .ok r) : r.length = l.length := by
  simp only [mfStrptime] at h
  have hl := mfLoop_length sp l (if fm.isEmpty = true then d else fm) (List.replicate l.length 0) (by simp)
  generalize mfLoop sp l (if fm.isEmpty = true then d else fm) (List.replicate l.length 0) = p at h hl
  obtain ⟨q, e⟩ := p
  cases e <;> simp only [Bool.false_eq_true, if_false, if_true] at h
  · split at h
    · simp at h
    · injection h with h; subst h; exact hl
  · injection h with h; subst h; exact hl

/-- A conversion of one run: as many cells, and the same empty ones if no string is missing. -/
structure Conv (a b : ACh) : Prop where
  len : b.cells.length = a.cells.length
  nulls : a.full → List.Forall₂ (fun x y : Option Val => x.isNone = y.isNone) a.cells b.cells

theorem Conv.refl (a : ACh) : Conv a a := ⟨rfl, fun _ => List.forall₂_same.mpr fun _ _ => rfl⟩

theorem forall2_some {α β : Type} (l : List (Option α)) (r : List (Option β)) (hl : l.length = r.length)
    (h1 : ∀ x ∈ l, x.isSome) (h2 : ∀ x ∈ r, x.isSome) :
    List.Forall₂ (fun x y => x.isNone = y.isNone) l r := by
  rw [List.forall₂_iff_get]
  refine ⟨hl, fun i a b => ?_⟩
  have e1 := h1 _ (List.getElem_mem a)
  have e2 := h2 _ (List.getElem_mem b)
  simp only [List.get_eq_getElem]
  rw [← Option.not_isSome, ← Option.not_isSome, e1, e2]

theorem conv_num (env : Env) (l : List (Option Str)) (raw : Bool) (xs : List F64) (h : aNumeric env l = .ok xs) :
    Conv (.str l raw) (.num xs) := by
  have := aNumeric_length env l xs h
  refine ⟨by simp [ACh.cells, this], fun hf => forall2_some _ _ (by simp [ACh.cells, this]) ?_ ?_⟩
  · intro x hx
    simp only [ACh.cells, List.mem_map] at hx
    obtain ⟨y, hy, rfl⟩ := hx
    simp only [ACh.full, List.all_eq_true] at hf
    simpa using hf y hy
  · intro x hx
    simp only [ACh.cells, List.mem_map] at hx
    obtain ⟨y, hy, rfl⟩ := hx
    rfl

theorem conv_tmp (l : List (Option Str)) (raw : Bool) (xs : List Int) (h : xs.length = l.length) :
    Conv (.str l raw) (.tmp xs) := by
  refine ⟨by simp [ACh.cells, h], fun hf => forall2_some _ _ (by simp [ACh.cells, h]) ?_ ?_⟩
  · intro x hx
    simp only [ACh.cells, List.mem_map] at hx
    obtain ⟨y, hy, rfl⟩ := hx
    simp only [ACh.full, List.all_eq_true] at hf
    simpa using hf y hy
  · intro x hx
    simp only [ACh.cells, List.mem_map] at hx
    obtain ⟨y, hy, rfl⟩ := hx
    rfl

theorem conv_numTmp (a : ACh) : Conv a (aNumTmp a) := by
  cases a with
  | num l =>
    refine ⟨by simp [ACh.cells, aNumTmp], fun _ => forall2_some _ _ (by simp [ACh.cells, aNumTmp]) ?_ ?_⟩
    · intro x hx
      simp only [ACh.cells, List.mem_map] at hx
      obtain ⟨y, hy, rfl⟩ := hx
      rfl
    · intro x hx
      simp only [ACh.cells, aNumTmp, List.mem_map] at hx
      obtain ⟨y, hy, rfl⟩ := hx
      rfl
  | _ => exact .refl _

theorem conv_strTmp (env : Env) (o : ConcatOpts) (a b : ACh) (f : Bool) (h : aStrTmp env o a = .ok (b, f)) :
    Conv a b := by
  cases a with
  | str l raw =>
    simp only [aStrTmp] at h
    cases raw with
    | true => simp at h
    | false =>
      simp only [Bool.false_eq_true, if_false] at h
      cases hm : mfStrptime env.strptime env.formats l o.formats true with
      | ok t =>
        rw [hm] at h; injection h with h; injection h with h _; subst h
        exact conv_tmp l false t (mfStrptime_length hm)
      | error e =>
        rw [hm] at h
        simp only at h
        cases hc : o.confNum with
        | false => rw [hc] at h; simp at h; rw [← h.1]; exact .refl _
        | true =>
          rw [hc] at h
          simp only [if_true] at h
          cases hx : aNumeric env l with
          | ok xs =>
            rw [hx] at h; injection h with h; injection h with h _; subst h
            exact conv_tmp l false _ (by simp [aNumeric_length env l xs hx])
          | error e => rw [hx] at h; injection h with h; injection h with h _; subst h; exact .refl _
  | _ => simp only [aStrTmp, Except.ok.injEq, Prod.mk.injEq] at h; rw [← h.1]; exact .refl _

theorem conv_trans_num (env : Env) (o : ConcatOpts) (a b : ACh) (f : Bool)
    (h : aStrTmp env o (aNumTmp a) = .ok (b, f)) : Conv a b := by
  cases a with
  | num l =>
    simp only [aNumTmp, aStrTmp, Except.ok.injEq, Prod.mk.injEq] at h
    rw [← h.1]; exact conv_numTmp (.num l)
  | str l raw => exact conv_strTmp env o _ b f h
  | nul n => exact conv_strTmp env o _ b f h
  | tmp l => exact conv_strTmp env o _ b f h

theorem conv_mapPy (env : Env) (o : ConcatOpts) : ∀ (as : List ACh) (bs : List (ACh × Bool)),
    mapPy (aStrTmp env o) (as.map aNumTmp) = .ok bs → List.Forall₂ Conv as (bs.map (·.1))
  | [], bs, h => by rw [List.map_nil, mapPy] at h; injection h with h; subst h; exact .nil
  | a :: as, bs, h => by
    rw [List.map_cons, mapPy] at h
    cases h1 : aStrTmp env o (aNumTmp a) with
    | error e => rw [h1] at h; simp at h
    | ok p =>
      obtain ⟨b, f⟩ := p
      rw [h1] at h
      simp only at h
      cases h2 : mapPy (aStrTmp env o) (as.map aNumTmp) with
      | error e => rw [h2] at h; simp at h
      | ok bs' =>
        rw [h2] at h; injection h with h; subst h
        exact .cons (conv_trans_num env o a b f h1) (conv_mapPy env o as bs' h2)

theorem conv_numLoop (env : Env) : ∀ (as : List ACh), List.Forall₂ Conv as (aNumLoop env as).1
  | [] => .nil
  | a :: as => by
    have ih := conv_numLoop env as
    cases a with
    | str l raw =>
      rw [aNumLoop]
      cases hx : aNumeric env l with
      | ok xs => exact .cons (conv_num env l raw xs hx) ih
      | error e => exact List.forall₂_same.mpr fun x _ => .refl x
    | _ => rw [aNumLoop]; exact .cons (.refl _) ih; all_goals simp

theorem conv_convert (env : Env) (o : ConcatOpts) (as bs : List ACh) (f : Bool)
    (h : aConvert env o as = .ok (bs, f)) : List.Forall₂ Conv as bs := by
  have hself : List.Forall₂ Conv as as := List.forall₂_same.mpr fun x _ => .refl x
  unfold aConvert at h
  simp only at h
  split at h
  · split at h
    · cases h2 : mapPy (aStrTmp env o) (as.map aNumTmp) with
      | error e => rw [h2] at h; simp at h
      | ok bs' =>
        rw [h2] at h; injection h with h; injection h with h _; subst h
        exact conv_mapPy env o as bs' h2
    · injection h with h; injection h with h _; subst h; exact hself
  · split at h
    · split at h
      · injection h with h
        have := conv_numLoop env as
        rw [h] at this; exact this
      · injection h with h; injection h with h _; subst h; exact hself
    · injection h with h; injection h with h _; subst h; exact hself

theorem aConcat_shape (env : Env) (o : ConcatOpts) (as : List ACh) (r : Arr) (h : aConcat env o as = .ok r) :
    ∃ bs f dt vs, aConvert env o as = .ok (bs, f) ∧
      aType o (as.any fun a => a.cls == .temp) (as.any fun a => a.cls == .nums) f bs = .ok dt ∧
      mapPy (fun a => castVals env dt a.cells) bs = .ok vs ∧ r = ⟨dt, vs.flatten⟩ := by
  unfold aConcat at h
  simp only at h
  cases h1 : aConvert env o as with
  | error e => rw [h1] at h; simp at h
  | ok p =>
    obtain ⟨bs, f⟩ := p
    rw [h1] at h
    simp only at h
    cases h2 : aType o (as.any fun a => a.cls == .temp) (as.any fun a => a.cls == .nums) f bs with
    | error e => rw [h2] at h; simp at h
    | ok dt =>
      rw [h2] at h
      simp only at h
      cases h3 : mapPy (fun a => castVals env dt a.cells) bs with
      | error e => rw [h3] at h; simp at h
      | ok vs =>
        rw [h3] at h
        simp only at h
        split at h
        · simp at h
        · injection h with h
          exact ⟨bs, f, dt, vs, rfl, h2, h3, h.symm⟩

theorem forall2_trans_null {a b c : List (Option Val)}
    (h1 : List.Forall₂ (fun x y : Option Val => x.isNone = y.isNone) a b)
    (h2 : List.Forall₂ (fun x y : Option Val => x.isNone = y.isNone) b c) :
    List.Forall₂ (fun x y : Option Val => x.isNone = y.isNone) a c := by
  induction h1 generalizing c with
  | nil => cases h2; exact .nil
  | cons h _ ih => cases h2 with | cons h' h'' => exact .cons (h.trans h') (ih h'')

theorem conv_length {as bs : List ACh} (hc : List.Forall₂ Conv as bs) :
    (bs.flatMap ACh.cells).length = (as.flatMap ACh.cells).length := by
  induction hc with
  | nil => rfl
  | cons h _ ih => rw [List.flatMap_cons, List.flatMap_cons, List.length_append, List.length_append, ih, h.len]

theorem conv_nulls {as bs : List ACh} (hc : List.Forall₂ Conv as bs) (hf : ∀ a ∈ as, a.full) :
    List.Forall₂ (fun x y : Option Val => x.isNone = y.isNone) (as.flatMap ACh.cells) (bs.flatMap ACh.cells) := by
  induction hc with
  | nil => exact .nil
  | cons h _ ih =>
    rw [List.flatMap_cons, List.flatMap_cons]
    exact List.rel_append (h.nulls (hf _ (by simp))) (ih (fun a ha => hf a (by simp [ha])))

theorem aConvert_off (env : Env) (o : ConcatOpts) (hd : o.confDt = false) (hc : o.confNum = false)
    (as bs : List ACh) (f : Bool) (h1 : aConvert env o as = .ok (bs, f)) : bs = as := by
  unfold aConvert at h1
  simp only [hd, hc, Bool.false_eq_true, if_false] at h1
  split at h1
  · injection h1 with h1; injection h1 with h1 _; exact h1.symm
  · split at h1 <;> (injection h1 with h1; injection h1 with h1 _; exact h1.symm)

/-- C29, length. -/
theorem aConcat_length (env : Env) (o : ConcatOpts) (as : List ACh) (r : Arr) (h : aConcat env o as = .ok r) :
    r.vals.length = (as.flatMap ACh.cells).length := by
  obtain ⟨bs, f, dt, vs, h1, _, h3, rfl⟩ := aConcat_shape env o as r h
  have hc := conv_convert env o as bs f h1
  have hn := (mapPy_nulls env dt bs vs h3).1.length_eq
  rw [← hn, conv_length hc]

/-- C29, empty cells. -/
theorem aConcat_nulls (env : Env) (o : ConcatOpts) (as : List ACh) (r : Arr) (h : aConcat env o as = .ok r)
    (hf : (∀ a ∈ as, a.full) ∨ (o.confDt = false ∧ o.confNum = false)) :
    List.Forall₂ (fun x y : Option Val => x.isNone = y.isNone) (as.flatMap ACh.cells) r.vals := by
  obtain ⟨bs, f, dt, vs, h1, _, h3, rfl⟩ := aConcat_shape env o as r h
  have hn := (mapPy_nulls env dt bs vs h3).1
  refine forall2_trans_null ?_ hn
  rcases hf with hf | ⟨hd, hc⟩
  · exact conv_nulls (conv_convert env o as bs f h1) hf
  · rw [aConvert_off env o hd hc as bs f h1]
    exact List.forall₂_same.mpr fun _ _ => rfl

end Rxls
