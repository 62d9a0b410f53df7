import Verif.Model.ArrowFn

/-! # Property C83: arguments of wrapped compute functions -/

namespace Rxls

variable {V : Type}

/-- The options a call asks for: the parameters in order, each with its argument.  Stated on the arguments as given by
position and by name, without the algorithm. -/
structure Signature.Given (s : Signature V) (args : List V) (kwargs : List (String × V)) (o : List (String × V)) : Prop where
  /-- every parameter has a value, in order -/
  names : o.map (·.1) = (s.positional ++ s.named).map (·.1)
  /-- by position -/
  positional : ∀ (i : Nat) (v : V), args[i]? = some v → (o[i]?).map (·.2) = some v
  /-- by name, or by default -/
  rest : ∀ (i : Nat) (p : String × Option V), args.length ≤ i → (s.positional ++ s.named)[i]? = some p →
    (o[i]?).map (·.2) = (kwargs.lookup p.1).or p.2

theorem bindRest_ok {kwargs : List (String × V)} : ∀ {ps : List (String × Option V)} {r : List (String × V)},
    bindRest kwargs ps = .ok r → r.map (·.1) = ps.map (·.1) ∧
      ∀ (i : Nat) (p : String × Option V), ps[i]? = some p → (r[i]?).map (·.2) = (kwargs.lookup p.1).or p.2
  | [], r, h => by
    simp only [bindRest, Except.ok.injEq] at h
    subst h
    simp
  | (n, d) :: ps, r, h => by
    simp only [bindRest] at h
    cases hl : (kwargs.lookup n).or d with
    | none => rw [hl] at h; simp at h
    | some v =>
      rw [hl] at h
      simp only at h
      cases hr : bindRest kwargs ps with
      | error e => rw [hr] at h; simp at h
      | ok q =>
        rw [hr] at h
        simp only [Except.ok.injEq] at h
        subst h
        obtain ⟨h1, h2⟩ := bindRest_ok hr
        refine ⟨by simp [h1], fun i p hp => ?_⟩
        cases i with
        | zero =>
          simp only [List.getElem?_cons_zero, Option.some.injEq] at hp
          subst hp
          simp [hl]
        | succ i => simpa using h2 i p (by simpa using hp)

/-- Binding gives the options asked for. -/
theorem bind_given {s : Signature V} {args : List V} {kwargs o : List (String × V)}
    (h : s.bind args kwargs = .ok o) : s.Given args kwargs o ∧ args.length ≤ s.positional.length := by
  unfold Signature.bind at h
  simp only at h
  split at h
  · simp at h
  rename_i hlen
  split at h
  · simp at h
  cases hr : bindRest kwargs (s.positional.drop args.length ++ s.named) with
  | error e => rw [hr] at h; simp at h
  | ok r =>
    rw [hr] at h
    simp only [Except.ok.injEq] at h
    obtain ⟨h1, h2⟩ := bindRest_ok hr
    have hl : args.length ≤ s.positional.length := by omega
    have hz : (((s.positional.take args.length).map (·.1)).zip args).length = args.length := by simp; omega
    refine ⟨⟨?_, ?_, ?_⟩, hl⟩
    · subst h
      rw [List.map_append, h1, List.map_fst_zip (by simp; omega), ← List.map_append, ← List.append_assoc,
        List.take_append_drop]
    · intro i v hi
      have hi' : i < args.length := by
        apply Nat.lt_of_not_le; intro hc
        rw [List.getElem?_eq_none (by omega)] at hi
        simp at hi
      subst h
      rw [List.getElem?_append_left (by omega)]
      rw [← List.getElem?_map, List.map_snd_zip (by simp; omega)]
      exact hi
    · intro i p hi hp
      subst h
      rw [List.getElem?_append_right (by omega), hz]
      refine h2 (i - args.length) p ?_
      rw [← hp]
      have e : s.positional ++ s.named = s.positional.take args.length ++ (s.positional.drop args.length ++ s.named) := by
        rw [← List.append_assoc, List.take_append_drop]
      rw [e, List.getElem?_append_right (l₁ := s.positional.take args.length) (by simp; omega), List.length_take, Nat.min_eq_left hl]

/-- C83.  A function whose options are made by the call gets as its arguments the first ones by position, as many as
its arity, and as options what the other arguments and the named ones say, or the defaults; no argument is lost. -/
theorem C83_made (f : ArrowFn V) (s : Signature V) (hf : f.options = .made s) (args : List V) (kwargs : List (String × V))
    (c : ArrowCall V) (h : f.call args kwargs = .ok c) :
    c.name = f.name ∧ c.args.length = f.arity ∧
      ∃ rest o, args = c.args ++ rest ∧ c.options = some o ∧ s.Given rest kwargs o := by
  unfold ArrowFn.call at h
  simp only [hf] at h
  cases hb : s.bind (args.drop f.arity) kwargs with
  | error e => rw [hb] at h; simp at h
  | ok o =>
    rw [hb] at h
    simp only at h
    split at h
    · simp at h
    · rename_i hl
      simp only [Except.ok.injEq] at h
      subst h
      exact ⟨rfl, by simpa using hl, args.drop f.arity, o, (List.take_append_drop _ _).symm, rfl, (bind_given hb).1⟩

/-- C83.  A function without options gets all arguments by position, and only as many as it takes. -/
theorem C83_plain (f : ArrowFn V) (hf : f.options = .none) (args : List V) (kwargs : List (String × V)) :
    f.call args kwargs = if args.length = f.arity then .ok ⟨f.name, args, none⟩ else .error .valueError := by
  simp [ArrowFn.call, hf]

/-- C83 fails for named arguments of a function without options or with fixed ones: they have no effect, whatever they
are.  Arguments by position past the arity have no effect on a function with fixed options. -/
theorem C83_lost (f : ArrowFn V) (args : List V) (kwargs : List (String × V)) :
    (f.options = .none → f.call args kwargs = f.call args []) ∧
    (∀ o, f.options = .fixed o → f.call args kwargs = f.call (args.take f.arity) []) := by
  refine ⟨fun h => by simp [ArrowFn.call, h], fun o h => ?_⟩
  simp [ArrowFn.call, h, List.take_take]

/-- C83.  The calls of rxls (`chunk.py:220,302,325`, `casts.py:659`, `common.py:86,246,254-284`), for all arrays, types,
formats, patterns and flags. -/
theorem C83_calls (a b : ArrowArg) (dt : String) (s : List Char) (i : Bool) :
    arrowUnsafeCast.call [a, .dtype dt] [] = .ok ⟨"cast", [a], some [("target_type", .dtype dt)]⟩ ∧
    arrowStrptimeFn.call [a, .text s, .text ['m', 's'], .flag true] [] =
      .ok ⟨"strptime", [a], some [("format", .text s), ("unit", .text ['m', 's']), ("error_is_null", .flag true)]⟩ ∧
    arrowMatch.call [a, .text s] [("ignore_case", .flag i)] =
      .ok ⟨"match_substring_regex", [a], some [("pattern", .text s), ("ignore_case", .flag i)]⟩ ∧
    arrowInvert.call [a] [] = .ok ⟨"invert", [a], none⟩ ∧
    arrowOr.call [a, b] [] = .ok ⟨"or", [a, b], none⟩ ∧
    arrowAnd.call [a, b] [] = .ok ⟨"and", [a, b], none⟩ ∧
    arrowTake.call [a, b] [] = .ok ⟨"array_take", [a, b], some [("boundscheck", .flag false)]⟩ := by
  refine ⟨rfl, rfl, rfl, rfl, rfl, rfl, rfl⟩

/-- C83.  What is left out of a call takes pyarrow's default: dates that do not parse are an error, and the case of
letters counts. -/
theorem C83_defaults (a : ArrowArg) (s u : List Char) :
    arrowStrptimeFn.call [a, .text s, .text u] [] =
      .ok ⟨"strptime", [a], some [("format", .text s), ("unit", .text u), ("error_is_null", .flag false)]⟩ ∧
    arrowMatch.call [a, .text s] [] =
      .ok ⟨"match_substring_regex", [a], some [("pattern", .text s), ("ignore_case", .flag false)]⟩ := ⟨rfl, rfl⟩

/-- Defaults, names, and the TypeErrors; `take` asked for a bounds check does not check. -/
example :
    arrowMatch.call [.array 0, .text ['x']] [] =
      .ok ⟨"match_substring_regex", [.array 0], some [("pattern", .text ['x']), ("ignore_case", .flag false)]⟩ ∧
    arrowMatch.call [.array 0] [("pattern", .text ['x'])] = arrowMatch.call [.array 0, .text ['x']] [] ∧
    arrowMatch.call [.array 0, .text ['x'], .flag true] [] = .error .typeError ∧
    arrowMatch.call [.array 0] [] = .error .typeError ∧
    arrowMatch.call [.array 0, .text ['x']] [("case", .flag true)] = .error .typeError ∧
    arrowMatch.call [.array 0, .text ['x']] [("pattern", .text ['y'])] = .error .typeError ∧
    arrowTake.call [.array 0, .array 1] [("boundscheck", .flag true)] =
      .ok ⟨"array_take", [.array 0, .array 1], some [("boundscheck", .flag false)]⟩ ∧
    arrowInvert.call [.array 0, .array 1] [] = .error .valueError := by
  exact ⟨rfl, rfl, rfl, rfl, rfl, rfl, rfl, rfl⟩

end Rxls
