/-
The keys of a dictionary as cells.
-/
import Verif.Spec.Concurrency

namespace Knuckle.Spec

/-- The request is accepted and associates `v` with the key `k` of `n`, a dictionary with keys of type `t` and values of type `u`. -/
def Puts (n t u : Str) (k v : Obj) (q : Request) : Prop :=
  q.accepted ∧ ∃ a b, Statement q.line n b!"associateValue:withKey:" [a, b] ∧ Denotes u a v ∧ Denotes t b k

/-- The request is accepted and associates something with the key `k` of `n`, removes this key, or clears `n`. -/
def WritesCell (n t u : Str) (k : Obj) (q : Request) : Prop :=
  (∃ v, Puts n t u k v q) ∨
    q.accepted ∧ ((∃ args, Statement q.line n b!"clear" args) ∨ ∃ a, Statement q.line n b!"removeKey:" [a] ∧ Denotes t a k)

/-- No accepted request of the log deletes `n`. -/
def Kept (n : Str) (log : List Request) : Prop := ∀ q ∈ log, q.accepted → ¬ Deletes q.line n

/-- After the log `v` is the value of the key `k` of `n`, which held the pairs `l₀` before: the last request that writes this cell puts `v` into it, or
no request writes it, and `v` was its value before. -/
def CellAfter (n t u : Str) (l₀ : List (Obj × Obj)) (log : List Request) (k v : Obj) : Prop :=
  (∃ l1 w l2, log = l1 ++ w :: l2 ∧ Puts n t u k v w ∧ ∀ x ∈ l2, ¬ WritesCell n t u k x) ∨ ((k, v) ∈ l₀ ∧ ∀ x ∈ log, ¬ WritesCell n t u k x)

end Knuckle.Spec
