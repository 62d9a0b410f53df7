/-!
# Leaving an XLSX sheet before its end (`rxls/reader/xlsx.py:424-460`)

The consumer of `iter_worksheet` may stop early: the generator is closed at its `yield`, and `with self.zf.open(…)`
closes the file the parser thread is reading (`xlsx.py:440`).  The parser notices at its next read.

The file is `zipfile.ZipExtFile` over `zipfile._SharedFile` of the standard library (the same from Python 3.8 to 3.12):

* `ZipExtFile.read` raises `ValueError("read from closed file.")` if `self.closed`; otherwise it takes the bytes from
  its buffer, or calls `_SharedFile.read`, which runs `self._file.seek(…)`, `self._file.read(…)`, `self._file.tell()`.
* `ZipExtFile.close` first sets `_SharedFile._file` to `None` (without taking the lock), then `closed`.

Simplifications: one call of `_SharedFile.read` per block at most; `put`, `get`, each access to `_file` and each
assignment of `close` are atomic; the parser puts the cells of a block one after the other before it reads the next.
-/

namespace Rxls

/-- What the reading of a block may raise in the parser thread, with `e.args[0]`.  (`rxls/reader/xlsx.py:427-433`.) -/
inductive ReadErr where
  | value (msg : String)
  | attr (msg : String)
  deriving DecidableEq, Repr

/-- `None.name`: the message of the `AttributeError`.  (`rxls/reader/xlsx.py:431-433`.) -/
def noneAttr (name : String) : ReadErr := .attr ("'NoneType' object has no attribute '" ++ name ++ "'")

/-- The `except` clauses around `parser.ParseFile(io)` (`xlsx.py:426-433`): which errors are dropped. -/
def dropped : ReadErr → Bool
  | .value msg => msg == "read from closed file."
  | .attr msg => msg == "'NoneType' object has no attribute 'tell'"

/-- Where the parser thread is.  `check`, `seek`, `read`, `tell`: in the reading of the next block; `emit cells`: it has
still to put these cells; `leaving e`: `ParseFile` has ended, with an error or not, and `finally` comes next; `over e`: the
thread has ended, `e` is the error it ended with (Python prints its traceback).  (`rxls/reader/xlsx.py:426-437`.) -/
inductive APc (α : Type) where
  | check
  | seek
  | read
  | tell
  | emit (cells : List α)
  | leaving (e : Option ReadErr)
  | over (e : Option ReadErr)
  deriving DecidableEq, Repr

/-- Where the consumer is: taking cells, between the two assignments of `close`, or past the `with` block.
(`rxls/reader/xlsx.py:442,460`.) -/
inductive CPc where
  | taking
  | closing
  | gone
  deriving DecidableEq, Repr

/-- State of both threads.  `blocks`: the unread blocks of the sheet, each with the cells that end in it and whether it
is in the buffer of `ZipExtFile`; `file`: `_SharedFile._file` is not `None`; `closed`: `ZipExtFile.closed`; `queue`: `none` is
the sentinel; `want`: number of cells after which the consumer leaves.  (`rxls/reader/xlsx.py:426-460`.) -/
structure AState (α : Type) where
  blocks : List (Bool × List α)
  want : Nat
  pc : APc α := .check
  cpc : CPc := .taking
  file : Bool := true
  closed : Bool := false
  queue : List (Option α) := []
  got : List α := []

/-- The two threads.  (`rxls/reader/xlsx.py:443-460`.) -/
inductive AThread where
  | parser
  | consumer
  deriving DecidableEq, Repr

/-- One turn of the parser thread (`xlsx.py:424-437`); `none`: it has ended. -/
def parserStep {α : Type} (s : AState α) : Option (AState α) :=
  match s.pc with
  | .check =>
    if s.closed then some { s with pc := .leaving (some (.value "read from closed file.")) }
    else
      match s.blocks with
      | [] => some { s with pc := .leaving none }
      | (true, cells) :: bs => some { s with pc := .emit cells, blocks := bs }
      | (false, _) :: _ => some { s with pc := .seek }
  | .seek => if s.file then some { s with pc := .read } else some { s with pc := .leaving (some (noneAttr "seek")) }
  | .read => if s.file then some { s with pc := .tell } else some { s with pc := .leaving (some (noneAttr "read")) }
  | .tell =>
    if s.file then
      match s.blocks with
      | [] => some { s with pc := .leaving none }
      | (_, cells) :: bs => some { s with pc := .emit cells, blocks := bs }
    else some { s with pc := .leaving (some (noneAttr "tell")) }
  | .emit (a :: l) => some { s with pc := .emit l, queue := s.queue ++ [some a] }
  | .emit [] => some { s with pc := .check }
  | .leaving e =>
    some { s with
      pc := .over (match e with
        | none => none
        | some e => if dropped e then none else some e),
      queue := s.queue ++ [none] }
  | .over _ => none

/-- One turn of the consumer (`xlsx.py:440,460`): it leaves after `want` cells or at the sentinel; `none`: it waits for
the queue, or is gone. -/
def consumerStep {α : Type} (s : AState α) : Option (AState α) :=
  match s.cpc with
  | .taking =>
    if s.got.length = s.want then some { s with file := false, cpc := .closing }
    else
      match s.queue with
      | [] => none
      | some a :: q => some { s with queue := q, got := s.got ++ [a] }
      | none :: q => some { s with queue := q, file := false, cpc := .closing }
  | .closing => some { s with closed := true, cpc := .gone }
  | .gone => none

/-- One turn of a thread.  (`rxls/reader/xlsx.py:426-460`.) -/
def aStep {α : Type} : AThread → AState α → Option (AState α)
  | .parser, s => parserStep s
  | .consumer, s => consumerStep s

/-- Run a schedule; a thread that cannot move when its turn comes does nothing.  (`rxls/reader/xlsx.py:443-460`.) -/
def aRun {α : Type} : List AThread → AState α → AState α
  | [], s => s
  | t :: ts, s => aRun ts ((aStep t s).getD s)

end Rxls
