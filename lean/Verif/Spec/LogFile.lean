/-
Log files that several processes have written, one after the other.
-/
import Verif.Model.LogFile
import Verif.Spec.Crash

namespace Knuckle.Spec

/-- The operating system takes everything. -/
def AllTaken (e : Timed) : Prop := ∀ i, e.disk i = none

/-- The server without its log file, in the outcome of a history. -/
def serverOf : Option (Outcome LServer) → Option (Outcome Server)
  | none => none
  | some .ub => some .ub
  | some (.done s) => some (.done s.srv)

/-- One process: its password and settings, and what happened to it until it ended (was killed, for instance).  That it was killed while a
line of the log was being written, of which only a first part is in the file, is described by a last event with a `disk` that takes only
this part. -/
structure Life where
  pwd : Str
  prec : Int
  eps : Fl
  quiet : Bool
  events : List Timed

/-- The server of this process at the beginning. -/
def Life.start (a : Life) (before : Str) : LServer := .init a.pwd (Ctx.init a.prec a.eps true a.quiet) before

/-- `Lives before ls after`: these processes, one after the other, all with the same log file, change its contents from `before` to `after`;
with each, the server in its last state. -/
inductive Lives [StdSort] : Str → List (Life × Server) → Str → Prop
  | nil {f} : Lives f [] f
  | cons {f f' a s ls} : lrun (a.start f) a.events = some (.done s) → Lives s.log.file ls f' → Lives f ((a, s.srv) :: ls) f'

/-- The records of all these processes. -/
def recordsOf (ls : List (Life × Server)) : List (Str × Str) := (ls.map fun a => a.2.ctx.fileLog).flatten

/-- All lines of these processes were written completely. -/
def CleanLives (ls : List (Life × Server)) : Prop :=
  ∀ a ∈ ls, a.1.eps.toF32 = a.1.eps ∧ ∀ x ∈ a.1.events, Stamp x.stamp ∧ AllTaken x

end Knuckle.Spec
