/-
Histories with and without questions.
-/
import Verif.Spec.Still

namespace Knuckle.Spec

/-- The second log is the first without some requests that are refused or ask questions. -/
inductive Without : List Request → List Request → Prop
  | nil : Without [] []
  | keep {l l' q} : Without l l' → Without (l ++ [q]) (l' ++ [q])
  | drop {l l' q} : Still q → ¬ ToConnection q.line → Without l l' → Without (l ++ [q]) l'

end Knuckle.Spec
