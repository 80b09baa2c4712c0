/-
Arrival of bytes: the part of an event list that does not depend on when and in which pieces the bytes of clients arrive.
-/
import Verif.Spec.Server

namespace Knuckle.Spec

/-- The event is not the arrival of bytes: the completion of an accept, a read or a write. -/
def Completion : Event → Bool
  | .recv _ _ => false
  | _ => true

/-- The completions, in their order. -/
def completions (es : List Event) : List Event := es.filter Completion

/-- The same completions, but all bytes `f i` of client `i` arrive in one piece as soon as the client is accepted (`n` clients
have been accepted before). -/
def atOnce (f : Nat → Str) : Nat → List Event → List Event
  | _, [] => []
  | n, .accept :: es => .accept :: .recv n (f n) :: atOnce f (n + 1) es
  | n, .recv _ _ :: es => atOnce f n es
  | n, e :: es => e :: atOnce f n es

/-- The connection waits for input, and all complete lines it has received were answered. -/
def Idle (k : Conn) : Prop := k.phase = .reading ∧ (10 : Byte) ∉ k.inbuf

end Knuckle.Spec
