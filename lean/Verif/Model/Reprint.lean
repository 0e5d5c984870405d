import Verif.Model.Text
/-!
# Reprinting the output of the pivot in debug mode

`reprint_pivot_output`, `/repo/src/qos_core/src/reaper.rs:128-158`: one task reads lines of both output streams of the pivot and
prints them. What the pivot does, and which of two ready streams is taken (`tokio::select!`), is a list of events.
-/
namespace Qos.Reprint

/-- The two output streams of the pivot. reaper.rs:129-130. -/
inductive Source where
  | out | err
  deriving DecidableEq

/-- What the reprinting task has not read of a stream, and whether the pivot (and every process that inherited it) has closed it.
reaper.rs:132-133. -/
structure Pipe where
  unread : Bytes
  closed : Bool

/-- The answer of `next_line` (reaper.rs:141, 148): a line, an error, or the end. The only errors modelled are lines that are not
UTF-8; reading a pipe does not fail otherwise. -/
inductive Read where
  | line (text : String)
  | bad
  | ended

/-- The bytes up to the first newline, and those after it. `read_until(b'\n')` of `Lines::next_line`, reaper.rs:136-137. -/
def splitNewline : Bytes → Option (Bytes × Bytes)
  | [] => none
  | b :: bs => if b = 10 then some ([], bs) else (splitNewline bs).map fun x => (b :: x.1, x.2)

/-- One `\r` less at the end. `Lines::next_line`, reaper.rs:136-137. -/
def stripCr (t : String) : String :=
  if t.toList.getLast? = some '\r' then String.ofList t.toList.dropLast else t

/-- A line as text; a `\r` is taken off only before a newline. `Lines::next_line`, reaper.rs:136-137. -/
def lineOf (newline : Bool) (bytes : Bytes) : Read :=
  match utf8Decode bytes with
  | none => .bad
  | some t => .line (if newline then stripCr t else t)

/-- `next_line` (reaper.rs:141, 148): `none` while it has to wait. Bytes that are not UTF-8 are dropped with their line. -/
def nextLine (p : Pipe) : Option (Read × Pipe) :=
  match splitNewline p.unread with
  | some (l, r) => some (lineOf true l, { p with unread := r })
  | none =>
    if p.closed then
      if p.unread = [] then some (.ended, p) else some (lineOf false p.unread, { p with unread := [] })
    else none

/-- What is printed. reaper.rs:143-145, 150-152. -/
inductive Printed where
  | line (text : String)
  | failed
  deriving DecidableEq

/-- The text on the console, and on which of the reaper's own streams. reaper.rs:143-145, 150-152. The text of the error is that
of `std::io::Error`. -/
def console : Source × Printed → Source × String
  | (.out, .line t) => (.out, "PIVOT[OUT]: " ++ t)
  | (.err, .line t) => (.err, "PIVOT[ERR]: " ++ t)
  | (.out, .failed) => (.err, "error reading pivot stdout: stream did not contain valid UTF-8")
  | (.err, .failed) => (.err, "error reading pivot stderr: stream did not contain valid UTF-8")

/-- The task and the two streams. reaper.rs:128-158. -/
structure State where
  out : Pipe
  err : Pipe
  printed : List (Source × Printed)
  /-- the loop runs; afterwards the reading ends are closed -/
  running : Bool

/-- Before the first read. reaper.rs:128-135. -/
def start : State := ⟨⟨[], false⟩, ⟨[], false⟩, [], true⟩

/-- One of the streams. reaper.rs:129-130. -/
def State.pipe (s : State) : Source → Pipe
  | .out => s.out
  | .err => s.err

/-- Change of one of the streams. reaper.rs:129-130. -/
def State.setPipe (s : State) : Source → Pipe → State
  | .out, p => { s with out := p }
  | .err, p => { s with err := p }

/-- What can happen: the pivot writes to a stream, closes it, or the task takes a stream that is ready. reaper.rs:139-156. -/
inductive Ev where
  | write (src : Source) (bytes : Bytes)
  | close (src : Source)
  | poll (src : Source)

/-- A branch of `select!` (reaper.rs:141-147, 148-154). -/
def took (s : State) (src : Source) : Read × Pipe → State
  | (.line t, p) => { s.setPipe src p with printed := s.printed ++ [(src, .line t)] }
  | (.bad, p) => { s.setPipe src p with printed := s.printed ++ [(src, .failed)] }
  | (.ended, _) => { s with running := false }

/-- One event. A write to a stream that nobody reads any more fails. reaper.rs:139-156. -/
def step (s : State) : Ev → State
  | .write src bytes =>
    if s.running ∧ (s.pipe src).closed = false then
      s.setPipe src { s.pipe src with unread := (s.pipe src).unread ++ bytes }
    else s
  | .close src => s.setPipe src { s.pipe src with closed := true }
  | .poll src =>
    if s.running then
      match nextLine (s.pipe src) with
      | some x => took s src x
      | none => s
    else s

/-- A run of the task. reaper.rs:139-156. -/
def run (evs : List Ev) : State := evs.foldl step start

end Qos.Reprint
