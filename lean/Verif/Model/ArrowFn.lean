import Verif.Model.Prelude

/-! # Wrapping compute functions: `rxls/chunk/arrow.py` -/

namespace Rxls

/-- The parameters of a Python callable: those that can be given by position, then those that can be given only by
name; each with its default, if any.  `V` are the values.  (`rxls/chunk/arrow.py:45-64`.) -/
structure Signature (V : Type) where
  positional : List (String × Option V) := []
  named : List (String × Option V) := []

/-- Parameters that take an argument by position, one after the other; what remains is given by name or by default.
(library behaviour used at `rxls/chunk/arrow.py:53`.) -/
def bindRest {V : Type} (kwargs : List (String × V)) : List (String × Option V) → Py (List (String × V))
  | [] => .ok []
  | (n, d) :: ps =>
    match (kwargs.lookup n).or d with
    | none => .error .typeError
    | some v =>
      match bindRest kwargs ps with
      | .error e => .error e
      | .ok r => .ok ((n, v) :: r)

/-- How Python binds the arguments of a call: TypeError for too many arguments by position, for an unknown name, for a
parameter given twice and for one not given.  (library behaviour used at `rxls/chunk/arrow.py:53`.) -/
def Signature.bind {V : Type} (s : Signature V) (args : List V) (kwargs : List (String × V)) :
    Py (List (String × V)) :=
  let byPos := s.positional.take args.length
  let rest := s.positional.drop args.length ++ s.named
  if s.positional.length < args.length then .error .typeError
  else if kwargs.any fun k => !(rest.map (·.1)).contains k.1 then .error .typeError
  else
    match bindRest kwargs rest with
    | .error e => .error e
    | .ok r => .ok ((byPos.map (·.1)).zip args ++ r)

/-- The argument `options` of `arrow_fn` (`arrow.py:34-43`): `None`, a class or another callable that makes the options,
or an options object.  Options are modelled by the arguments they are made of. -/
inductive ArrowOptions (V : Type) where
  | none
  | made (s : Signature V)
  | fixed (o : List (String × V))

/-- A function of Arrow wrapped by `arrow_fn`: its name and arity there, and the options.
(`rxls/chunk/arrow.py:34-43`.) -/
structure ArrowFn (V : Type) where
  name : String
  arity : Nat
  options : ArrowOptions V

/-- What reaches Arrow: the function, its arguments, the options if there are any.  (`rxls/chunk/arrow.py:53,58,64`.) -/
structure ArrowCall (V : Type) where
  name : String
  args : List V
  options : Option (List (String × V))
  deriving DecidableEq

/-- Calling the wrapped function (`arrow.py:45-64`).  Arrow itself rejects a wrong number of arguments with ValueError. -/
def ArrowFn.call {V : Type} (f : ArrowFn V) (args : List V) (kwargs : List (String × V)) : Py (ArrowCall V) :=
  let send (as : List V) (o : Option (List (String × V))) : Py (ArrowCall V) :=
    if as.length ≠ f.arity then .error .valueError else .ok ⟨f.name, as, o⟩
  match f.options with
  | .made s =>
    match s.bind (args.drop f.arity) kwargs with
    | .error e => .error e
    | .ok o => send (args.take f.arity) (some o)
  | .fixed o => send (args.take f.arity) (some o)
  | .none => send args none

/-- The values in the calls of rxls: arrays, and the constants used in options.  (`rxls/chunk/arrow.py:73-121`.) -/
inductive ArrowArg where
  | array (n : Nat)
  | text (s : List Char)
  | flag (b : Bool)
  | dtype (name : String)
  deriving DecidableEq

/-- `unsafe_cast` (`arrow.py:73-75`); `CastOptions.unsafe(target_type=None)`, where the default is never used here. -/
def arrowUnsafeCast : ArrowFn ArrowArg := ⟨"cast", 1, .made { positional := [("target_type", none)] }⟩
/-- `strptime` (`arrow.py:78-80`); `StrptimeOptions(format, unit, error_is_null=False)`. -/
def arrowStrptimeFn : ArrowFn ArrowArg :=
  ⟨"strptime", 1, .made { positional := [("format", none), ("unit", none), ("error_is_null", some (.flag false))] }⟩
/-- `indices_nonzero` (`arrow.py:83-85`). -/
def arrowIndicesNonzero : ArrowFn ArrowArg := ⟨"indices_nonzero", 1, .none⟩
/-- `match` (`arrow.py:88-96`); `MatchSubstringOptions(pattern, *, ignore_case=False)`. -/
def arrowMatch : ArrowFn ArrowArg :=
  ⟨"match_substring_regex", 1, .made { positional := [("pattern", none)], named := [("ignore_case", some (.flag false))] }⟩
/-- `invert` (`arrow.py:99-101`). -/
def arrowInvert : ArrowFn ArrowArg := ⟨"invert", 1, .none⟩
/-- `or_` (`arrow.py:104-106`). -/
def arrowOr : ArrowFn ArrowArg := ⟨"or", 2, .none⟩
/-- `and_` (`arrow.py:109-111`). -/
def arrowAnd : ArrowFn ArrowArg := ⟨"and", 2, .none⟩
/-- `take` (`arrow.py:114-121`). -/
def arrowTake : ArrowFn ArrowArg := ⟨"array_take", 2, .fixed [("boundscheck", .flag false)]⟩

end Rxls
