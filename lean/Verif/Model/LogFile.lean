/-
The log file itself: the stream `_logfile` of the context and the bytes in the file behind it, when the operating system may refuse
bytes (disk full, quota, I/O error), and when the file is not empty at the start.
-/
import Verif.Model.Log
import Verif.Model.Server

namespace Knuckle

/-- The stream `_logfile`, `src/context.h:45`: the bytes in the file, and whether no error bit of the stream is set. -/
structure LogFile where
  file : Str
  good : Bool
deriving DecidableEq

/-- Opening the file, `src/context.cpp:53`: with `std::ios::app`, so what is in it stays there.  (That it cannot be opened is
`fileOpen := false` in `Model/Context.lean`.) -/
def LogFile.append (file : Str) : LogFile := ⟨file, true⟩

/-- What the operating system does with a piece of text that is written: `none`, it takes all of it; `some n`, it takes (at most) the
first `n` bytes and reports an error. -/
abbrev Disk := Option Nat

/-- One `<<` of the statement `src/context.cpp:169`: on a stream in error nothing is written, and after an error the stream is in error
for good (no `clear()` anywhere in `src`).  Simplification: the stream may hold the text back until `std::endl`, which comes in the same
statement; the bytes reach the file in the same order. -/
def LogFile.put (f : LogFile) (text : Str) : Disk → LogFile
  | none => if f.good then ⟨f.file ++ text, true⟩ else f
  | some n => if f.good then ⟨f.file ++ text.take n, false⟩ else f

/-- The statement `src/context.cpp:169`; `disk i` is what happens to the `i`-th piece. -/
def LogFile.writeRecord (f : LogFile) (stamp : Str) (record : Str × Str) (disk : Nat → Disk) : LogFile :=
  (((((f.put stamp (disk 0)).put b!" " (disk 1)).put record.1 (disk 2)).put b!" -> " (disk 3)).put record.2 (disk 4)).put b!"\n" (disk 5)

/-- The server with its log file. -/
structure LServer where
  srv : Server
  log : LogFile

/-- The server is started with context `c` and a log file that contains `before`. -/
def LServer.init (pwd : Str) (c : Ctx) (before : Str) : LServer := ⟨Server.init pwd c, .append before⟩

/-- An event at a time with time stamp `stamp`, with what the operating system does to the line of the log, if one is written. -/
structure Timed where
  event : Event
  stamp : Str
  disk : Nat → Disk

/-- One event: as in `Model/Server.lean`; the records that `Context::execute` makes are written to the file (`src/context.cpp:165-171`;
`fileLog` of the model is the list of all records made so far while the file is open; the result of the insertion is not looked at). -/
def lstep [StdSort] (s : LServer) (e : Timed) : Option (Outcome LServer) :=
  match step s.srv e.event with
  | none => none
  | some .ub => some .ub
  | some (.done t) => some (.done ⟨t, (t.ctx.fileLog.drop s.srv.ctx.fileLog.length).foldl (fun f r => f.writeRecord e.stamp r e.disk) s.log⟩)

/-- A history of events. -/
def lrun [StdSort] (s : LServer) : List Timed → Option (Outcome LServer)
  | [] => some (.done s)
  | e :: es => match lstep s e with
    | none => none
    | some .ub => some .ub
    | some (.done s') => lrun s' es

end Knuckle
