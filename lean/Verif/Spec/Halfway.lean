/-
What has changed between two moments.
-/
import Verif.Spec.Concurrency

namespace Knuckle.Spec

/-- Variable `n` holds the same in both contexts, or is absent in both. -/
def Unchanged (c d : Ctx) (n : Str) : Prop := ∀ i, Holds c n i ↔ Holds d n i

/-- The request deletes all variables of a namespace that contains both. -/
def DeletesBoth (text m n : Str) : Prop :=
  ∃ ns, Statement text b!"Context" b!"deleteVariablesOfNamespace:" [ns] ∧ InNamespace m ns ∧ InNamespace n ns

end Knuckle.Spec
