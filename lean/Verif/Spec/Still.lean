/-
Times at which nobody changes the data.
-/
import Verif.Spec.Concurrency
import Verif.Spec.Questions

namespace Knuckle.Spec

/-- The request was not accepted, asks a question, or is for the connection. -/
def Still (q : Request) : Prop := ¬ q.accepted ∨ (∃ a name args, Statement q.line a name args ∧ Question name) ∨ ToConnection q.line

end Knuckle.Spec
