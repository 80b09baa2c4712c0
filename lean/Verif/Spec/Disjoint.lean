/-
What is left of a history if some clients do nothing.
-/
import Verif.Spec.Isolation
import Verif.Spec.Anonymous

namespace Knuckle.Spec

/-- The connection an event happens at, if any. -/
def whose : Event → Option Nat
  | .accept => none
  | .acceptErr => none
  | .recv i _ => some i
  | .read i => some i
  | .readErr i => some i
  | .wrote i => some i
  | .wroteShort i => some i
  | .writeErr i => some i

/-- The events that happen at connections in `S`, and the accepts: what is left if the other clients connect and then do nothing. -/
def among (S : Nat → Bool) (es : List Event) : List Event := es.filter fun e => match whose e with
  | some i => S i
  | none => true

/-- Two servers look the same to the connections in `S`, as far as the variables in `N` are concerned. -/
def SameAmong (S : Nat → Bool) (N : Str → Prop) (s s' : Server) : Prop :=
  AgreeOn N s.ctx s'.ctx ∧ s'.accepting = s.accepting ∧ s'.conns.length = s.conns.length ∧ ∀ j, S j = true → s'.conns[j]? = s.conns[j]?

end Knuckle.Spec
