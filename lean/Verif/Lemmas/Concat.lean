import Verif.Lemmas.TakeOver
import Mathlib.Data.List.Forall2

/-! # chunk.concatenate, on the cells -/

namespace Rxls

/-- What a chunk is, whatever its representation.  `raw`: shared strings not yet looked up. -/
inductive ACh where
  | nul (n : Nat)
  | str (l : List (Option Str)) (raw : Bool)
  | num (l : List F64)
  | tmp (l : List Int)
  deriving DecidableEq

namespace ACh

def cls : ACh → Cls
  | nul _ => .null
  | str _ _ => .utf8
  | num _ => .nums
  | tmp _ => .temp

def cells : ACh → List (Option Val)
  | nul n => List.replicate n none
  | str l _ => l.map (Option.map Val.str)
  | num l => l.map fun x => some (.f8 x)
  | tmp l => l.map fun n => some (.ts n)

/-- Forget whether shared strings were looked up. -/
def looked : ACh → ACh
  | str l _ => str l false
  | a => a

theorem looked_cells (a : ACh) : a.looked.cells = a.cells := by cases a <;> rfl
theorem looked_cls (a : ACh) : a.looked.cls = a.cls := by cases a <;> rfl
theorem looked_looked (a : ACh) : a.looked.looked = a.looked := by cases a <;> rfl

theorem val_str_inj : Function.Injective (Option.map Val.str) :=
  Option.map_injective (fun _ _ h => by injection h)

theorem looked_ext {a b : ACh} (h1 : a.cls = b.cls) (h2 : a.cells = b.cells) : a.looked = b.looked := by
  cases a <;> cases b <;> simp only [cls, reduceCtorEq] at h1
  · simpa [cells, looked, List.replicate_inj] using congrArg List.length h2
  · simp only [cells, looked] at h2 ⊢
    rw [List.map_injective_iff.mpr val_str_inj h2]
  · simp only [cells, looked] at h2 ⊢
    rw [List.map_injective_iff.mpr (fun _ _ h => by injection h with h; injection h) h2]
  · simp only [cells, looked] at h2 ⊢
    rw [List.map_injective_iff.mpr (fun _ _ h => by injection h with h; injection h) h2]

end ACh

/-- A chunk and what it is. -/
inductive Abs : Chunk → ACh → Prop where
  | null (n sz sr) : Abs ⟨.nulls n, 0, sz, sr⟩ (.nul n)
  | str (l sz sr) : Abs ⟨.strs l, 0x18, sz, sr⟩ (.str l false)
  | shared (l sz sr) (vs : List (Option Str)) (h : l.map (sr[·]?) = vs.map some) :
      Abs ⟨.idx l, 0x11, sz, sr⟩ (.str vs true)
  | num (l t sz sr) (h : t = 0x28 ∨ t = 0x29) : Abs ⟨.f8 l, t, sz, sr⟩ (.num l)
  | rk (l sz sr) : Abs ⟨.u32 l, 0x21, sz, sr⟩ (.num (l.map rkToF8))
  | serial (l sz sr) : Abs ⟨.f8 l, 0x24, sz, sr⟩ (.tmp (l.map f8ToMsWin))
  | rkSerial (l sz sr) : Abs ⟨.u32 l, 0x25, sz, sr⟩ (.tmp (l.map fun b => f8ToMsWin (rkToF8 b)))
  | ms (l t sz sr) (h : t = 0x2C ∨ t = 0x2D) : Abs ⟨.i8 l, t, sz, sr⟩ (.tmp l)

theorem Abs.denotes {c : Chunk} {a : ACh} (h : Abs c a) : Denotes c a.cls a.cells := by
  cases h with
  | null n sz sr => exact .null _ _ _
  | str l sz sr => exact .str _ _ _
  | shared l sz sr vs h => exact .shared _ _ _ _ h
  | num l t sz sr h => exact .num _ _ _ _ h
  | rk l sz sr => simpa [ACh.cells, ACh.cls, Function.comp_def] using Denotes.rk l sz sr
  | serial l sz sr => simpa [ACh.cells, ACh.cls, Function.comp_def] using Denotes.serial l sz sr
  | rkSerial l sz sr => simpa [ACh.cells, ACh.cls, Function.comp_def] using Denotes.rkSerial l sz sr
  | ms l t sz sr h => exact .ms _ _ _ _ h

theorem Denotes.abs {c : Chunk} {k vs} (h : Denotes c k vs) :
    ∃ a, Abs c a ∧ a.cls = k ∧ a.cells = vs := by
  cases h with
  | null n sz sr => exact ⟨_, .null _ _ _, rfl, rfl⟩
  | str l sz sr => exact ⟨_, .str _ _ _, rfl, rfl⟩
  | shared l sz sr vs h => exact ⟨_, .shared _ _ _ _ h, rfl, rfl⟩
  | num l t sz sr h => exact ⟨_, .num _ _ _ _ h, rfl, rfl⟩
  | rk l sz sr => exact ⟨_, .rk _ _ _, rfl, by simp [ACh.cells]⟩
  | serial l sz sr => exact ⟨_, .serial _ _ _, rfl, by simp [ACh.cells]⟩
  | rkSerial l sz sr => exact ⟨_, .rkSerial _ _ _, rfl, by simp [ACh.cells]⟩
  | ms l t sz sr h => exact ⟨_, .ms _ _ _ _ h, rfl, rfl⟩

theorem Abs.cls_eq {c : Chunk} {a : ACh} (h : Abs c a) : c.cls = a.cls := by
  cases h with
  | num l t sz sr h =>
    rcases h with rfl | rfl <;> simp [Chunk.cls, ACh.cls, hasBit, TYPE_STRING, REPR_TEMPORAL]
  | ms l t sz sr h =>
    rcases h with rfl | rfl <;> simp [Chunk.cls, ACh.cls, hasBit, TYPE_STRING, REPR_TEMPORAL]
  | _ => simp [Chunk.cls, ACh.cls, hasBit, TYPE_STRING, REPR_TEMPORAL]

theorem Abs.typ_zero {c : Chunk} {a : ACh} (h : Abs c a) : c.typ = 0 ↔ a.cls = .null := by
  cases h with
  | num l t sz sr h => rcases h with rfl | rfl <;> simp [ACh.cls]
  | ms l t sz sr h => rcases h with rfl | rfl <;> simp [ACh.cls]
  | _ => simp [ACh.cls]

theorem takeShared_ok {sr : List (Option Str)} : ∀ {l : List Nat} {vs : List (Option Str)},
    l.map (sr[·]?) = vs.map some → takeShared sr l = .ok vs
  | [], [], _ => rfl
  | i :: l, v :: vs, h => by
    simp only [List.map_cons, List.cons.injEq] at h
    have := takeShared_ok (l := l) (vs := vs) h.2
    rw [takeShared] at this
    rw [takeShared, List.mapM_cons, h.1, this]
    rfl
  | [], _ :: _, h => by simp at h
  | _ :: _, [], h => by simp at h

theorem prepare_abs {c : Chunk} {a : ACh} (h : Abs c a) (hn : a.cls ≠ .null) :
    ∃ c', c.prepare = .ok c' ∧ Abs c' a.looked ∧ c'.size = c.size ∧ hasBit c'.typ REPR_PREPARED := by
  cases h with
  | null n sz sr => exact absurd rfl hn
  | str l sz sr => exact ⟨_, by simp [Chunk.prepare, hasBit, REPR_PREPARED], .str _ _ _, rfl, by simp [hasBit, REPR_PREPARED]⟩
  | shared l sz sr vs h =>
    refine ⟨⟨.strs vs, 0x18, sz, sr⟩, ?_, .str _ _ _, rfl, by simp [hasBit, REPR_PREPARED]⟩
    simp [Chunk.prepare, hasBit, REPR_PREPARED, TYPE_STRING, takeShared_ok h, bind, Except.bind]
  | num l t sz sr h =>
    rcases h with rfl | rfl
    · exact ⟨_, by simp [Chunk.prepare, hasBit, REPR_PREPARED], .num _ _ _ _ (.inl rfl), rfl, by simp [hasBit, REPR_PREPARED]⟩
    · exact ⟨_, by simp [Chunk.prepare, hasBit, REPR_PREPARED], .num _ _ _ _ (.inr rfl), rfl, by simp [hasBit, REPR_PREPARED]⟩
  | rk l sz sr =>
    refine ⟨⟨.f8 (l.map rkToF8), 0x29, sz, sr⟩, ?_, .num _ _ _ _ (.inr rfl), rfl, by simp [hasBit, REPR_PREPARED]⟩
    simp [Chunk.prepare, hasBit, REPR_PREPARED, TYPE_STRING, REPR_RKNUMBER, REPR_TEMPORAL, bind, Except.bind]
  | serial l sz sr =>
    refine ⟨⟨.i8 (l.map f8ToMsWin), 0x2C, sz, sr⟩, ?_, .ms _ _ _ _ (.inl rfl), rfl, by simp [hasBit, REPR_PREPARED]⟩
    simp [Chunk.prepare, hasBit, REPR_PREPARED, TYPE_STRING, REPR_RKNUMBER, REPR_TEMPORAL, bind, Except.bind]
  | rkSerial l sz sr =>
    refine ⟨⟨.i8 (l.map fun b => f8ToMsWin (rkToF8 b)), 0x2D, sz, sr⟩, ?_, .ms _ _ _ _ (.inr rfl), rfl, by simp [hasBit, REPR_PREPARED]⟩
    simp [Chunk.prepare, hasBit, REPR_PREPARED, TYPE_STRING, REPR_RKNUMBER, REPR_TEMPORAL, bind, Except.bind]
  | ms l t sz sr h =>
    rcases h with rfl | rfl
    · exact ⟨_, by simp [Chunk.prepare, hasBit, REPR_PREPARED], .ms _ _ _ _ (.inl rfl), rfl, by simp [hasBit, REPR_PREPARED]⟩
    · exact ⟨_, by simp [Chunk.prepare, hasBit, REPR_PREPARED], .ms _ _ _ _ (.inr rfl), rfl, by simp [hasBit, REPR_PREPARED]⟩

/-- Element type of a kind. -/
def Cls.dtype : Cls → DType
  | .null => .utf8
  | .utf8 => .utf8
  | .temp => .ts
  | .nums => .f8

theorem wrap_abs {c : Chunk} {a : ACh} (h : Abs c a) (hn : a.cls ≠ .null)
    (hp : hasBit c.typ REPR_PREPARED) : c.wrap = .ok ⟨a.cls.dtype, a.cells⟩ := by
  cases h with
  | null n sz sr => exact absurd rfl hn
  | str l sz sr => simp [Chunk.wrap, hasBit, TYPE_STRING, Cls.dtype, ACh.cls, ACh.cells]
  | shared l sz sr vs h => simp [hasBit, REPR_PREPARED] at hp
  | num l t sz sr h =>
    rcases h with rfl | rfl <;>
    simp [Chunk.wrap, hasBit, TYPE_STRING, REPR_TEMPORAL, Cls.dtype, ACh.cls, ACh.cells]
  | rk l sz sr => simp [hasBit, REPR_PREPARED] at hp
  | serial l sz sr => simp [hasBit, REPR_PREPARED] at hp
  | rkSerial l sz sr => simp [hasBit, REPR_PREPARED] at hp
  | ms l t sz sr h =>
    rcases h with rfl | rfl <;>
    simp [Chunk.wrap, hasBit, TYPE_STRING, REPR_TEMPORAL, Cls.dtype, ACh.cls, ACh.cells]

theorem castVals_id (env : Env) (a : ACh) : castVals env a.cls.dtype a.cells = .ok a.cells := by
  have key : ∀ (dt : DType) (l : List (Option Val)),
      (∀ v ∈ l, ∀ w, v = some w → castVal env dt w = .ok w) → castVals env dt l = .ok l := by
    intro dt l
    induction l with
    | nil => intro _; rfl
    | cons v l ih =>
      intro h
      have h1 := ih (fun v hv => h v (by simp [hv]))
      rw [castVals] at h1
      rw [castVals, List.mapM_cons, h1]
      cases v with
      | none => rfl
      | some w => simp only [h _ (List.mem_cons_self) w rfl]; rfl
  apply key
  cases a with
  | nul n => intro v hv w hw; subst hw; simp [ACh.cells] at hv
  | str l r =>
    intro v hv w hw; subst hw
    simp only [ACh.cells, List.mem_map] at hv
    obtain ⟨o, _, ho⟩ := hv
    cases o <;> simp at ho
    subst ho; rfl
  | num l =>
    intro v hv w hw; subst hw
    simp only [ACh.cells, List.mem_map] at hv
    obtain ⟨o, _, ho⟩ := hv
    injection ho with ho; subst ho; rfl
  | tmp l =>
    intro v hv w hw; subst hw
    simp only [ACh.cells, List.mem_map] at hv
    obtain ⟨o, _, ho⟩ := hv
    injection ho with ho; subst ho; rfl

theorem castVals_none (env : Env) (dt : DType) (n : Nat) :
    castVals env dt (List.replicate n none) = .ok (List.replicate n none) := by
  induction n with
  | zero => rfl
  | succ n ih =>
    rw [castVals] at ih
    rw [List.replicate_succ, castVals, List.mapM_cons, ih]; rfl

theorem castArr_abs (env : Env) (dt : DType) (a : ACh) :
    castArr env dt ⟨a.cls.dtype, a.cells⟩ = (castVals env dt a.cells).map fun vs => ⟨dt, vs⟩ := by
  by_cases h : a.cls.dtype = dt
  · subst h; rw [castVals_id]; simp [castArr, Except.map]
  · simp [castArr, h]

/-- `x.arrow(dest_dtype=dt)` is the cast of the cells. -/
theorem arrow_abs (env : Env) (dt : DType) {c : Chunk} {a : ACh} (h : Abs c a) :
    ∃ c', c.arrow env dt = (c', (castVals env dt a.cells).map fun vs => ⟨dt, vs⟩) ∧ Abs c' a.looked ∧
      c'.size = c.size := by
  by_cases hn : a.cls = .null
  · cases h with
    | null n sz sr =>
      refine ⟨⟨.nulls n, 0, sz, sr⟩, ?_, .null _ _ _, rfl⟩
      simp [Chunk.arrow, ACh.cells, castVals_none, Except.map]
    | _ => simp [ACh.cls] at hn
  · obtain ⟨c', e, h1, h2, h3⟩ := prepare_abs h hn
    refine ⟨c', ?_, h1, h2⟩
    have ht : ¬ c.typ = 0 := fun hz => hn (h.typ_zero.mp hz)
    have hw := wrap_abs h1 (by rwa [ACh.looked_cls]) h3
    rw [ACh.looked_cls, ACh.looked_cells] at hw
    simp only [Chunk.arrow, ht, if_false, e, hw, bind, Except.bind]
    rw [castArr_abs]

/-! ## Conversions -/

/-- Strings read as numbers: a missing string counts as 0. -/
def aNumeric (env : Env) : List (Option Str) → Py (List F64)
  | [] => .ok []
  | none :: l => match aNumeric env l with
    | .ok r => .ok (.fin 0 :: r)
    | .error e => .error e
  | some s :: l => match env.parseF8 s with
    | none => .error .arrowInvalid
    | some x => match aNumeric env l with
      | .ok r => .ok (x :: r)
      | .error e => .error e

theorem castVals_cons (env : Env) (dt : DType) (v : Option Val) (l : List (Option Val)) :
    castVals env dt (v :: l) =
      match (match v with | none => Except.ok none | some w => (castVal env dt w).map some : Py (Option Val)) with
      | .error e => .error e
      | .ok x => match castVals env dt l with
        | .error e => .error e
        | .ok r => .ok (x :: r) := by
  rw [castVals, List.mapM_cons, ← castVals]
  cases v with
  | none => cases castVals env dt l <;> rfl
  | some w =>
    cases h : castVal env dt w with
    | error e => simp [Except.map, h, bind, Except.bind]
    | ok x => simp only [Except.map, h]; cases castVals env dt l <;> rfl

theorem aNumeric_cast (env : Env) (l : List (Option Str)) :
    (match castVals env .f8 (l.map (Option.map Val.str)) with
      | .ok ws => .ok (unsafeArrayF8 ⟨.f8, ws⟩)
      | .error e => .error e : Py (List F64)) = aNumeric env l := by
  induction l with
  | nil => rfl
  | cons v l ih =>
    rw [List.map_cons, castVals_cons]
    cases v with
    | none =>
      simp only [Option.map_none, aNumeric, ← ih]
      cases castVals env .f8 (l.map (Option.map Val.str)) with
      | error e => rfl
      | ok ws => rfl
    | some s =>
      simp only [Option.map_some, aNumeric, castVal]
      cases env.parseF8 s with
      | none => rfl
      | some x =>
        simp only [Except.map, ← ih]
        cases castVals env .f8 (l.map (Option.map Val.str)) with
        | error e => rfl
        | ok ws => rfl

theorem aNumeric_err (env : Env) (l : List (Option Str)) (e : PyErr) (h : aNumeric env l = .error e) :
    e = .arrowInvalid := by
  induction l with
  | nil => simp [aNumeric] at h
  | cons v l ih =>
    cases v with
    | none =>
      simp only [aNumeric] at h
      cases h2 : aNumeric env l with
      | ok r => simp [h2] at h
      | error e' => simp [h2] at h; subst h; exact ih h2
    | some s =>
      simp only [aNumeric] at h
      cases h3 : env.parseF8 s with
      | none => simp [h3] at h; exact h.symm
      | some x =>
        simp only [h3] at h
        cases h2 : aNumeric env l with
        | ok r => simp [h2] at h
        | error e' => simp [h2] at h; subst h; exact ih h2

/-- `as_numeric` of a string chunk. -/
theorem asNumeric_abs (env : Env) {c : Chunk} {l : List (Option Str)} {r : Bool} (h : Abs c (.str l r)) :
    ∃ c', Abs c' (.str l false) ∧ c'.size = c.size ∧ c.asNumeric env =
      (c', match aNumeric env l with
        | .ok xs => .ok (some ⟨.f8 xs, 0x28, 0, []⟩)
        | .error e => .error e) := by
  obtain ⟨c', e, h1, h2⟩ := arrow_abs env .f8 h
  refine ⟨c', h1, h2, ?_⟩
  have ht : (decide (c.typ = 0) || hasBit c.typ TYPE_NUMERIC) = false := by
    cases h <;> simp [hasBit, TYPE_NUMERIC]
  rw [Chunk.asNumeric, ht]
  simp only [Bool.false_eq_true, if_false, e]
  rw [← aNumeric_cast]
  simp only [ACh.cells]
  cases castVals env .f8 (l.map (Option.map Val.str)) with
  | error e => rfl
  | ok ws => rfl

/-- `as_temporal` of a number chunk. -/
theorem asTemporal_num (env : Env) (fm : List Str) {c : Chunk} {l : List F64} (h : Abs c (.num l)) :
    ∃ c', c.asTemporal env fm = .ok (some c') ∧ Abs c' (.tmp (l.map f8ToMsWin)) := by
  cases h with
  | num l t sz sr h =>
    rcases h with rfl | rfl
    · exact ⟨⟨.f8 l, 0x24, 0, []⟩, by simp [Chunk.asTemporal, hasBit, TYPE_NUMERIC, REPR_TEMPORAL, REPR_PREPARED], .serial _ _ _⟩
    · exact ⟨⟨.f8 l, 0x24, 0, []⟩, by simp [Chunk.asTemporal, hasBit, TYPE_NUMERIC, REPR_TEMPORAL, REPR_PREPARED], .serial _ _ _⟩
  | rk l sz sr =>
    refine ⟨⟨.u32 l, 0x25, 0, []⟩, by simp [Chunk.asTemporal, hasBit, TYPE_NUMERIC, REPR_TEMPORAL, REPR_PREPARED], ?_⟩
    simpa [Function.comp_def] using Abs.rkSerial l 0 []

/-- `as_temporal` of a string chunk. -/
theorem asTemporal_str (env : Env) (fm : List Str) {c : Chunk} {l : List (Option Str)} {r : Bool}
    (h : Abs c (.str l r)) :
    c.asTemporal env fm = if r then .error .arrowNotImplemented else
      match mfStrptime env.strptime env.formats l fm true with
      | .ok t => .ok (some ⟨.i8 t, 0x2C, 0, []⟩)
      | .error e => .error e := by
  cases h with
  | str l sz sr =>
    simp [Chunk.asTemporal, hasBit, TYPE_NUMERIC, REPR_TEMPORAL, REPR_PREPARED]
    cases mfStrptime env.strptime env.formats l fm true <;> rfl
  | shared l sz sr vs h => simp [Chunk.asTemporal, hasBit, TYPE_NUMERIC]

theorem mfStrptime_err {sp : Str → Option Str → Option Int} {d : List Str} {l : List (Option Str)}
    {fm : List Str} {e : PyErr} (h : mfStrptime sp d l fm true = .error e) : e = .arrowInvalid := by
  simp only [mfStrptime, Bool.true_and] at h
  generalize mfLoop sp l _ _ = r at h
  obtain ⟨r, b⟩ := r
  cases b <;> simp only [Bool.false_eq_true, if_false, if_true, reduceCtorEq] at h
  by_cases h2 : (r.any fun r => decide (r = 0)) = true
  · rw [if_pos h2] at h; injection h with h; exact h.symm
  · rw [if_neg h2] at h; simp at h

end Rxls
