/-
Requests and standard output.
-/
import Verif.Model.Console
import Verif.Spec.Server
import Verif.Spec.Log

namespace Knuckle.Spec

/-- Requests are logged to standard output: there is no log file and quiet mode is off. -/
def Loud (c : Ctx) : Prop := c.fileOpen = false ∧ c.quiet = false

/-- The event is that a complete line is read from a connection that waits for one, and that it is executed: the client has authenticated,
or the line is a statement to `Connection`. -/
def ExecutesALine (s : Server) (e : Event) : Prop :=
  ∃ (i : Nat) (k : Conn) (line rest : Str), e = .read i ∧ s.conns[i]? = some k ∧ k.phase = .reading ∧
    k.inbuf = line ++ 10 :: rest ∧ (10 : Byte) ∉ line ∧ (k.sess.authed = true ∨ ToConnection line)

/-- The outcome of a history of the server, with standard output in state `f` at the end. -/
def withConsole (f : Console) : Option (Outcome Server) → Option CEnds
  | none => none
  | some .ub => some .ub
  | some (.done s) => some (.goes ⟨s, f⟩)

/-- The server without standard output; `none` also if the process has been killed or hangs. -/
def withoutConsole : Option CEnds → Option (Outcome Server)
  | some .ub => some .ub
  | some (.goes s) => some (.done s.srv)
  | _ => none

end Knuckle.Spec
