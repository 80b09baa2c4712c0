/-
The `Session` objects of the server and the operations that keep them alive.
-/
import Verif.Model.Sessions

namespace Knuckle.Spec

open Heap (HServer Handler)

/-- The operation is one of connection `i`. -/
def ofConnection (i : Nat) : Handler → Bool
  | .accept => false
  | .read j => j == i
  | .write j _ => j == i

/-- The reads and writes pending for connection `i`. -/
def operations (s : HServer) (i : Nat) : List Handler := s.pending.filter (ofConnection i)

/-- The `Session` object of connection `i` exists. -/
def SessionLives (s : HServer) (i : Nat) : Prop := ∃ c n, s.socks.cells i = some (c, n)

/-- The number of shared pointers to the `Session` object of connection `i`. -/
def sessionOwners (s : HServer) (i : Nat) : Nat := match s.socks.cells i with
  | some (_, n) => n
  | none => 0

/-- What the clients see of the end of a history: the bytes written to each connection. -/
def onWires {σ : Type} (wires : σ → List Str) : Option (Outcome σ) → Option (Outcome (List Str))
  | none => none
  | some .ub => some .ub
  | some (.done s) => some (.done (wires s))

end Knuckle.Spec
