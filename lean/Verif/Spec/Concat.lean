import Verif.Spec.Chunk

/-!
# What materialising a column should give
-/

namespace Rxls

/-- Kind and cells of each run of a column. -/
abbrev Runs := List (Cls × List (Option Val))

/-- The chunks hold these runs. -/
def HoldsRuns (cs : List Chunk) (rs : Runs) : Prop := List.Forall₂ (fun c r => c.Holds r.1 r.2) cs rs

/-- All cells of the runs, top to bottom. -/
def Runs.cells (rs : Runs) : List (Option Val) := rs.flatMap (·.2)

/-- The text of a cell. -/
def cellText (env : Env) : Val → Str
  | .str s => s
  | .f8 x => env.renderF8 x
  | .i8 n => env.renderI8 n
  | .ts n => env.renderTs n

/-- The string in a cell. -/
def asStr : Option Val → Option Str
  | some (.str s) => some s
  | _ => none

/-- Every text among the cells reads as a number. -/
def numericTexts (env : Env) (vs : List (Option Val)) : Bool :=
  vs.all fun v => match v with
    | some (.str s) => (env.parseF8 s).isSome
    | _ => true

/-- Every cell reads as a moment. -/
def datedTexts (env : Env) (formats : List Str) (vs : List (Option Val)) : Bool :=
  match mfStrptime env.strptime env.formats (vs.map asStr) formats true with
  | .ok _ => true
  | .error _ => false

/-- The number a cell stands for in a numeric column. -/
def cellNumber (env : Env) : Option Val → F64
  | some (.f8 x) => x
  | some (.str s) => (env.parseF8 s).getD (.fin 0)
  | _ => .fin 0

/-- The type of a column (C30). -/
def decideType (env : Env) (o : ConcatOpts) (rs : Runs) : DType :=
  let temporal := rs.any fun r => r.1 == .temp
  let numbers := rs.any fun r => r.1 == .nums
  let strings := rs.any fun r => r.1 == .utf8
  if temporal then
    if !numbers && !strings then .ts
    else if o.confDt && (rs.all fun r => r.1 != .utf8 || datedTexts env o.formats r.2 ||
        (o.confNum && numericTexts env r.2)) then .ts
    else .utf8
  else if numbers then
    if !strings || (o.confNum && rs.all fun r => r.1 != .utf8 || numericTexts env r.2) then
      if rs.all fun r => r.1 == .null || r.2.all (fun v => f8IsI8 [cellNumber env v] o.prec) then .i8 else .f8
    else .utf8
  else .utf8

/-- One materialisation of a column. -/
structure Call where
  opts : ConcatOpts
  offset : Int
  length : Int
  index : Option (List Bool)

/-- The call has a window or an index. -/
def Call.windowed (c : Call) : Prop := c.offset ≠ 0 ∨ c.length ≠ 0 ∨ c.index.isSome

/-- State of the chunk list after some calls. -/
def afterCalls (env : Env) (cs : List Chunk) : List Call → List Chunk
  | [] => cs
  | c :: hist => afterCalls env (concatenate env c.opts cs c.offset c.length c.index).1 hist

end Rxls
