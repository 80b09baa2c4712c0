/-
What clients that share variables can rely on: names as locks, counters, journals.
-/
import Verif.Spec.Server
import Verif.Spec.Updates

namespace Knuckle.Spec

/-- The request asks for a new variable `n`: `create:` or `create:withValue:` (not `createIfNotExists:`). -/
def Claims (text n : Str) : Prop :=
  ∃ a name args i, Statement text a name args ∧ Creates a name args n i ∧ (name = b!"create:" ∨ name = b!"create:withValue:")

/-- The request was accepted. -/
def Request.accepted (q : Request) : Prop := q.reply ∉ errorTexts

/-- After the requests of the log `n` exists, if `before` tells whether it did before: it has been created and not deleted
since, or existed before and has not been deleted. -/
def ExistsAfter (before : Prop) (log : List Request) (n : Str) : Prop :=
  (∃ l q l', log = l ++ q :: l' ∧ q.accepted ∧ (∃ i, CreationOf q.line n i) ∧ ∀ x ∈ l', x.accepted → ¬ Deletes x.line n) ∨
    (before ∧ ∀ x ∈ log, x.accepted → ¬ Deletes x.line n)

/-- `UpdatesOf n log ops`: `n` is not deleted, and `ops` are the name, arguments and reply of the accepted messages of all
clients to `n` that are not questions, in order. -/
inductive UpdatesOf (n : Str) : List Request → List (Str × List Str × Str) → Prop
  | nil : UpdatesOf n [] []
  | update {q log name args ops} : Statement q.line n name args → ¬ Question name → q.accepted → UpdatesOf n log ops →
      UpdatesOf n (q :: log) ((name, args, q.reply) :: ops)
  | other {q log ops} : (¬ q.accepted ∨ (∃ name args, Statement q.line n name args ∧ Question name) ∨ ¬ Concerns q.line n) →
      UpdatesOf n log ops → UpdatesOf n (q :: log) ops

/-- The messages are `add:` and `subtract:` of integers, which together add `d`. -/
inductive CounterOps : List (Str × List Str × Str) → Int → Prop
  | nil : CounterOps [] 0
  | add {a k r ops d} : IntLiteral a k → CounterOps ops d → CounterOps ((b!"add:", [a], r) :: ops) (k + d)
  | subtract {a k r ops d} : IntLiteral a k → CounterOps ops d → CounterOps ((b!"subtract:", [a], r) :: ops) (-k + d)

/-- The messages are `concatenate:` of these strings. -/
inductive JournalOps : List (Str × List Str × Str) → List Str → Prop
  | nil : JournalOps [] []
  | concatenate {a v r ops vs} : StringLiteral a v → JournalOps ops vs → JournalOps ((b!"concatenate:", [a], r) :: ops) (v :: vs)

/-- The messages, without the replies. -/
def messages (ops : List (Str × List Str × Str)) : List (Str × List Str) := ops.map fun op => (op.1, op.2.1)

end Knuckle.Spec
