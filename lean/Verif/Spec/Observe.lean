/-
Conversations: what a client can find out by sending requests one after the other.
-/
import Verif.Spec.Effect

namespace Knuckle.Spec

/-- The replies to requests that a client with session `s` sends one after the other, starting in context `c`. -/
def conversation [StdSort] (pwd : Str) : Ctx → Session → List Str → Outcome (List Str)
  | _, _, [] => .done []
  | c, s, t :: ts => match execute pwd c (some s) t with
    | .done (c', some s', r) => match conversation pwd c' s' ts with
      | .done rs => .done (r :: rs)
      | .ub => .ub
    | _ => .ub

/-- A client with session `s` cannot tell the contexts apart by a conversation that is defined in both. -/
def Indistinguishable [StdSort] (pwd : Str) (s : Session) (c d : Ctx) : Prop :=
  ∀ ts rs rs', conversation pwd c s ts = .done rs → conversation pwd d s ts = .done rs' → rs = rs'

end Knuckle.Spec
