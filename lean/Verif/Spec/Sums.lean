/-
Floats that are only added to and subtracted from.
-/
import Verif.Spec.Concurrency
import Verif.Spec.Reals
import Mathlib.Algebra.BigOperators.Group.List.Basic

namespace Knuckle.Spec

/-- The messages are `add:` and `subtract:` with literals; together they add these numbers (as written, before any rounding). -/
inductive SumOps : List (Str × List Str × Str) → List ℚ → Prop
  | nil : SumOps [] []
  | add {a neg q r ops qs} : FloatLiteral a neg q → SumOps ops qs → SumOps ((b!"add:", [a], r) :: ops) (q :: qs)
  | subtract {a neg q r ops qs} : FloatLiteral a neg q → SumOps ops qs → SumOps ((b!"subtract:", [a], r) :: ops) (-q :: qs)

/-- The sum of the magnitudes. -/
def magnitude (qs : List ℚ) : ℚ := (qs.map abs).sum

/-- A multiple of `2^g`. -/
def MultipleOf (g : ℤ) (q : ℚ) : Prop := ∃ m : ℤ, q = m * 2 ^ g

end Knuckle.Spec
