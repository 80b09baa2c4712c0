/-
Executions of the server that go on forever, and what the environment owes a connection.
-/
import Verif.Spec.Server

namespace Knuckle.Spec

/-- The server, started with the context `c`, goes through the states `st 0`, `st 1`, … by the events `ev 0`, `ev 1`, …,
without undefined behaviour. -/
structure Execution [StdSort] (pwd : Str) (c : Ctx) (ev : Nat → Event) (st : Nat → Server) : Prop where
  start : st 0 = Server.init pwd c
  next : ∀ n, step (st n) (ev n) = some (.done (st (n + 1)))

/-- The first `n` events. -/
def firstEvents (ev : Nat → Event) (n : Nat) : List Event := (List.range n).map ev

/-- The operating system is fair to connection `i`, and its client takes the replies: a read that can be completed because a
whole line has arrived is completed some time, with or without error; and so is a pending write.  Nothing is demanded for
other connections, whose clients may do what they like: not read their replies, send endless lines, …. -/
structure FairTo (ev : Nat → Event) (st : Nat → Server) (i : Nat) : Prop where
  reads : ∀ n k, (st n).conns[i]? = some k → k.phase = .reading → (10 : Byte) ∈ k.inbuf →
    ∃ m, n ≤ m ∧ (ev m = .read i ∨ ev m = .readErr i)
  writes : ∀ n k r, (st n).conns[i]? = some k → k.phase = .writing r → ∃ m, n ≤ m ∧ (ev m = .wrote i ∨ ev m = .writeErr i)

end Knuckle.Spec
