/-!
# The parser thread and its queue (`rxls/reader/xlsx.py:377-384,437-460`)

`Queue` is `queue.SimpleQueue`: unbounded, first in first out, `put` never blocks, `get` blocks while it is empty.
Each `put` and `get` is one atomic step.
-/

namespace Rxls

/-- State of the two threads.  `todo`: cells the parser has not put yet; `sent`: the sentinel has been put;
`queue`: contents, `none` is the sentinel; `got`: cells the generator has yielded; `done`: it has stopped.
(`rxls/reader/xlsx.py:439-460`.) -/
structure QState (α : Type) where
  todo : List α
  sent : Bool := false
  queue : List (Option α) := []
  got : List α := []
  done : Bool := false

/-- The two threads.  (`rxls/reader/xlsx.py:443-460`.) -/
inductive Thread where
  | parser
  | consumer
  deriving DecidableEq, Repr

/-- The next step of a thread; `none`: it is blocked or has ended.  The parser puts its cells and then, in the
`finally` clause, the sentinel (`xlsx.py:437`), once.  The consumer is `iter(o_q.get, sentinel)` (`xlsx.py:460`). -/
def qStep {α : Type} : Thread → QState α → Option (QState α)
  | .parser, s =>
    match s.todo with
    | a :: l => some { s with todo := l, queue := s.queue ++ [some a] }
    | [] => if s.sent then none else some { s with sent := true, queue := s.queue ++ [none] }
  | .consumer, s =>
    if s.done then none
    else
      match s.queue with
      | [] => none
      | some a :: q => some { s with queue := q, got := s.got ++ [a] }
      | none :: q => some { s with queue := q, done := true }

/-- Run a schedule; a thread that cannot move when its turn comes does nothing.  (`rxls/reader/xlsx.py:443-460`.) -/
def qRun {α : Type} : List Thread → QState α → QState α
  | [], s => s
  | t :: ts, s => qRun ts ((qStep t s).getD s)

end Rxls
