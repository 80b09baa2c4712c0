/-
A vector with one element that clients change with `replaceFirst:with:` only: compare and swap.
-/
import Verif.Spec.Concurrency

namespace Knuckle.Spec

/-- The request is accepted and replaces `o`, if it is there, by `r` in the vector `n` with elements of type `t`. -/
def Swap (n t : Str) (o r : Obj) (q : Request) : Prop :=
  q.accepted ∧ ∃ a b, Statement q.line n b!"replaceFirst:with:" [a, b] ∧ Denotes t a o ∧ Denotes t b r

/-- `Swapped n t x log y`: everything in the log that concerns `n` are questions and accepted swaps.  A cell that contained `x` contains `y` after
these swaps: each changes its content exactly if it finds what it expects. -/
inductive Swapped (n t : Str) (x : Obj) : List Request → Obj → Prop
  | nil : Swapped n t x [] x
  | hit {q log o r} : Swap n t o r q → Swapped n t x log o → Swapped n t x (log ++ [q]) r
  | miss {q log o r y} : Swap n t o r q → y ≠ o → Swapped n t x log y → Swapped n t x (log ++ [q]) y
  | other {q log y} : (¬ q.accepted ∨ (∃ name args, Statement q.line n name args ∧ Question name) ∨ ¬ Concerns q.line n) →
      Swapped n t x log y → Swapped n t x (log ++ [q]) y

/-- No accepted request deletes `n`, and the accepted messages to `n` are questions and `replaceFirst:with:`. -/
def OnlySwaps (n : Str) (log : List Request) : Prop :=
  ∀ q ∈ log, q.accepted → ¬ Deletes q.line n ∧ ∀ name args, Statement q.line n name args → Question name ∨ name = b!"replaceFirst:with:"

end Knuckle.Spec
