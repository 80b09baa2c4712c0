/-
Agreement: clients that all propose a value for one name with `createIfNotExists:withValue:`, and then ask for it with `get`.
-/
import Verif.Spec.Concurrency

namespace Knuckle.Spec

/-- The request proposes the value `o` for `n`. -/
def Proposes (text n : Str) (o : Obj) : Prop :=
  ∃ t a, ObjectType t ∧ Variable n ∧ Statement text t b!"createIfNotExists:withValue:" [n, a] ∧ Denotes t a o

/-- The request asks what has been decided. -/
def AsksFor (text n : Str) : Prop := Statement text n b!"get" []

/-- The request is a step of the protocol for `n`, or has nothing to do with `n`. -/
def ByProtocol (n text : Str) : Prop :=
  (∃ o, Proposes text n o) ∨ AsksFor text n ∨ (¬ Concerns text n ∧ ∀ i, ¬ CreationOf text n i)

/-- The first accepted proposal of the log, of whichever client, is `o`. -/
def FirstProposal (n : Str) (log : List Request) (o : Obj) : Prop :=
  ∃ l q l', log = l ++ q :: l' ∧ q.accepted ∧ Proposes q.line n o ∧ ∀ x ∈ l, x.accepted → ∀ o', ¬ Proposes x.line n o'

end Knuckle.Spec
