/-
A barrier on an Integer: each of a number of clients adds 1 when it arrives, and asks for the value until all have arrived.
-/
import Verif.Spec.Concurrency

namespace Knuckle.Spec

/-- The request adds 1 to `n`. -/
def Arrives (text n : Str) : Prop := ∃ a, IntLiteral a 1 ∧ Statement text n b!"add:" [a]

/-- The clients use `n` as a barrier: no accepted request deletes `n`, and the accepted messages to `n` are questions and additions of 1. -/
def UsedAsBarrier (n : Str) (log : List Request) : Prop :=
  ∀ q ∈ log, q.accepted → ¬ Deletes q.line n ∧ ∀ name args, Statement q.line n name args → Question name ∨ Arrives q.line n

/-- The clients only count up: no accepted request deletes `n`, and the accepted messages to `n` are questions and additions of integers that
are not negative. -/
def CountedUp (n : Str) (log : List Request) : Prop :=
  ∀ q ∈ log, q.accepted → ¬ Deletes q.line n ∧ ∀ name args, Statement q.line n name args →
    Question name ∨ ∃ a k, name = b!"add:" ∧ args = [a] ∧ IntLiteral a k ∧ 0 ≤ k

/-- The client has arrived. -/
def Arrived (n : Str) (log : List Request) (i : Nat) : Prop := ∃ q ∈ log, q.conn = i ∧ q.accepted ∧ Arrives q.line n

/-- No client arrives twice. -/
def ArriveOnce (n : Str) (log : List Request) : Prop :=
  log.Pairwise fun p q => p.accepted → q.accepted → Arrives p.line n → Arrives q.line n → p.conn ≠ q.conn

end Knuckle.Spec
