/-
Standard output: the process behind it may have ended, may not read, or the device may refuse bytes.

What the operating system does with a text that is written is a parameter.  `SIGPIPE` has its default action (`src` never calls `signal`
or `sigaction`; on Linux Boost.Asio suppresses the signal for sockets only), and the write blocks if nobody reads (standard output is not
non-blocking).  Simplification: the pieces of one line (`src/context.cpp:171`) have one fate, since `std::endl` flushes them together.
-/
import Verif.Model.Log
import Verif.Model.Server

namespace Knuckle

/-- What becomes of a text that is written to standard output: it is taken; only the first `n` bytes are taken and an error is reported;
it is a pipe that nobody can read any more; or the write never returns. -/
inductive OutFate
  | taken
  | refused (n : Nat)
  | broken
  | waits
deriving DecidableEq

/-- `std::cout`: what has been written, and whether no error bit is set (`src` never calls `clear()`). -/
structure Console where
  text : Str
  good : Bool
deriving DecidableEq

/-- What a write does to the process. -/
inductive Wrote
  | goes (f : Console)
  | killed
  | hangs

/-- `std::cout << ... << std::endl`: nothing happens on a stream in error. -/
def Console.write (f : Console) (text : Str) (fate : OutFate) : Wrote :=
  if f.good then
    match fate with
    | .taken => .goes ⟨f.text ++ text, true⟩
    | .refused n => .goes ⟨f.text ++ text.take n, false⟩
    | .broken => .killed
    | .waits => .hangs
  else .goes f

/-- The server and standard output. -/
structure CServer where
  srv : Server
  console : Console

/-- How an event ends: in undefined behaviour; normally; the process is killed; or it never ends, and so no other event can happen. -/
inductive CEnds
  | ub
  | goes (s : CServer)
  | killed
  | hangs

/-- An event at a time with time stamp `stamp`, with what happens to the line on standard output, if one is written. -/
structure Shown where
  event : Event
  stamp : Str
  fate : OutFate

/-- Lines are written one after the other (an event writes at most one). -/
def Console.writeAll (f : Console) (stamp : Str) (fate : OutFate) : List (Str × Str) → Wrote
  | [] => .goes f
  | r :: rs => match f.write (logLine stamp r) fate with
    | .goes f' => f'.writeAll stamp fate rs
    | o => o

/-- One event: as in `Model/Server.lean`; the record that `Context::execute` makes is written to standard output inside of it
(`src/context.cpp:170-171`; `stdoutLog` of the model is the list of these records), before the reply is sent. -/
def cstep [StdSort] (s : CServer) (x : Shown) : Option CEnds :=
  match step s.srv x.event with
  | none => none
  | some .ub => some .ub
  | some (.done t) => match s.console.writeAll x.stamp x.fate (t.ctx.stdoutLog.drop s.srv.ctx.stdoutLog.length) with
    | .goes f => some (.goes ⟨t, f⟩)
    | .killed => some .killed
    | .hangs => some .hangs

/-- A history of events.  After the process is killed, or hangs, no event is possible. -/
def crun [StdSort] (s : CServer) : List Shown → Option CEnds
  | [] => some (.goes s)
  | x :: xs => match cstep s x with
    | none => none
    | some .ub => some .ub
    | some (.goes s') => crun s' xs
    | some .killed => match xs with | [] => some .killed | _ => none
    | some .hangs => match xs with | [] => some .hangs | _ => none

/-- What `main` prints first, also in quiet mode and with a log file, `src/knuckleball.cpp:38,67-69`; `pid` are the digits of the process id. -/
def banner (pid : Str) : Str := b!"Running Knuckleball " ++ (b!"0.1.0" ++ (b!"\nPID: " ++ (pid ++ b!"\n\n")))

/-- `main` after the command line has been accepted, `src/knuckleball.cpp:66-74`, up to the start of the event loop.  Simplification: the
three statements have one fate. -/
def cstart (pid : Str) (fate : OutFate) (s : Server) : CEnds :=
  match (Console.mk [] true).write (banner pid) fate with
  | .goes f => .goes ⟨s, f⟩
  | .killed => .killed
  | .hangs => .hangs

end Knuckle
