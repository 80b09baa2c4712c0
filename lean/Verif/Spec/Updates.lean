/-
Histories, seen from one variable: which of the requests of all clients were accepted messages to the variable that may
change it; and what such messages do to a set, a dictionary, a queue.
-/
import Verif.Spec.Answers
import Verif.Spec.Questions

namespace Knuckle.Spec

/-- `Updates n c ops c'`: a history of requests, from any sessions, leads from `c` to `c'`.  `ops` are the name, arguments
and reply of the accepted messages to the variable `n` that are not questions, in order.  All other requests of the history
were refused, or questions to `n`, or did not concern `n`. -/
inductive Updates [StdSort] (n : Str) : Ctx → List (Str × List Str × Str) → Ctx → Prop
  | nil {c : Ctx} : Updates n c [] c
  | update {pwd : Str} {c c' c'' : Ctx} {s s' : Option Session} {text name r : Str} {args : List Str}
      {ops : List (Str × List Str × Str)} : execute pwd c s text = .done (c', s', r) → Statement text n name args →
      ¬ Question name → r ∉ errorTexts → Updates n c' ops c'' → Updates n c ((name, args, r) :: ops) c''
  | other {pwd : Str} {c c' c'' : Ctx} {s s' : Option Session} {text r : Str} {ops : List (Str × List Str × Str)} :
      execute pwd c s text = .done (c', s', r) →
      (r ∈ errorTexts ∨ (∃ name args, Statement text n name args ∧ Question name) ∨ ¬ Concerns text n) →
      Updates n c' ops c'' → Updates n c ops c''

/-- The request deletes variable `n`, alone or with its namespace. -/
inductive Deletes (text n : Str) : Prop
  | delete : Statement text b!"Context" b!"deleteVariable:" [n] → Deletes text n
  | deleteNamespace {ns} : Statement text b!"Context" b!"deleteVariablesOfNamespace:" [ns] → InNamespace n ns → Deletes text n

/-! ### Queues -/

/-- The messages are `pushBack:` of the elements `pushed` and `popFront` with the replies `replies`, in any order. -/
inductive QueueOps (t : Str) : List (Str × List Str × Str) → List Obj → List Str → Prop
  | nil : QueueOps t [] [] []
  | push {a o r ops pushed replies} : Denotes t a o → QueueOps t ops pushed replies →
      QueueOps t ((b!"pushBack:", [a], r) :: ops) (o :: pushed) replies
  | pop {r ops pushed replies} : QueueOps t ops pushed replies →
      QueueOps t ((b!"popFront", [], r) :: ops) pushed (r :: replies)

/-! ### Sets -/

/-- The message adds `o` to a set with elements of type `t`. -/
def Adds (t : Str) (o : Obj) (op : Str × List Str × Str) : Prop := ∃ a, op.1 = b!"add:" ∧ op.2.1 = [a] ∧ Denotes t a o

/-- The message removes `o` from a set with elements of type `t`. -/
def Removes (t : Str) (o : Obj) (op : Str × List Str × Str) : Prop :=
  op.1 = b!"clear" ∨ ∃ a, op.1 = b!"remove:" ∧ op.2.1 = [a] ∧ Denotes t a o

/-- After these messages to a set with the elements `l`, `o` is an element: it has been added and not removed since, or was
there before and has not been removed. -/
def ElementAfter (t : Str) (l : List Obj) (ops : List (Str × List Str × Str)) (o : Obj) : Prop :=
  (∃ p op q, ops = p ++ op :: q ∧ Adds t o op ∧ ∀ x ∈ q, ¬ Removes t o x) ∨ (o ∈ l ∧ ∀ x ∈ ops, ¬ Removes t o x)

/-! ### Dictionaries -/

/-- The message associates `v` with `k`, in a dictionary with keys of type `t` and values of type `u`. -/
def Associates (t u : Str) (k v : Obj) (op : Str × List Str × Str) : Prop :=
  ∃ a b, op.1 = b!"associateValue:withKey:" ∧ op.2.1 = [a, b] ∧ Denotes u a v ∧ Denotes t b k

/-- The message removes `k` from a dictionary with keys of type `t`. -/
def RemovesKey (t : Str) (k : Obj) (op : Str × List Str × Str) : Prop :=
  op.1 = b!"clear" ∨ ∃ a, op.1 = b!"removeKey:" ∧ op.2.1 = [a] ∧ Denotes t a k

/-- The message gives `k` a new value, or removes it. -/
def Rewrites (t u : Str) (k : Obj) (op : Str × List Str × Str) : Prop := (∃ v, Associates t u k v op) ∨ RemovesKey t k op

/-- After these messages to a dictionary with the pairs `l`, `v` is the value of `k`: it has been associated with it last,
and `k` not removed since, or it was its value before and nothing has been done to `k`. -/
def ValueAfter (t u : Str) (l : List (Obj × Obj)) (ops : List (Str × List Str × Str)) (k v : Obj) : Prop :=
  (∃ p op q, ops = p ++ op :: q ∧ Associates t u k v op ∧ ∀ x ∈ q, ¬ Rewrites t u k x) ∨
    ((k, v) ∈ l ∧ ∀ x ∈ ops, ¬ Rewrites t u k x)

end Knuckle.Spec
