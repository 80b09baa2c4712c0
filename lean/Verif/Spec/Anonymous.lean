/-
Events of one connection, and what a connection has sent.
-/
import Verif.Spec.Server

namespace Knuckle.Spec

/-- The event happens at connection `i`. -/
def AtConn (i : Nat) : Event → Bool
  | .accept => false
  | .acceptErr => false
  | .recv j _ => j == i
  | .read j => j == i
  | .readErr j => j == i
  | .wrote j => j == i
  | .wroteShort j => j == i
  | .writeErr j => j == i

/-- The history without everything that happens at connection `i` after it was accepted. -/
def without (i : Nat) (es : List Event) : List Event := es.filter fun e => !AtConn i e

/-- Connection `i` has sent this complete line. -/
def Sent (i : Nat) (es : List Event) (line : Str) : Prop :=
  ∃ before rest, received i es = wire before ++ (line ++ 10 :: rest) ∧ (10 : Byte) ∉ line

/-- Two servers look the same to everybody but connection `i`: the same variables and settings, and the other connections are in
the same state. -/
def SameFor (i : Nat) (s s' : Server) : Prop :=
  SameData s.ctx s'.ctx ∧ s'.accepting = s.accepting ∧ s'.conns.length = s.conns.length ∧ ∀ j, j ≠ i → s'.conns[j]? = s.conns[j]?

/-- The two servers look the same to all clients: nothing can happen in both, both are undefined, or both go on, with the connections in
the same state, in particular with the same bytes written to them. -/
def SameToClients : Option (Outcome Server) → Option (Outcome Server) → Prop
  | none, none => True
  | some .ub, some .ub => True
  | some (.done s), some (.done t) => t.conns = s.conns ∧ t.accepting = s.accepting
  | _, _ => False

end Knuckle.Spec
