/-
Which variables a request reads or writes.
-/
import Verif.Spec.Server

namespace Knuckle.Spec

/-- The request may read or write the variable `n`, or observe whether it exists. -/
inductive Touches (text n : Str) : Prop
  | message {name args} : Variable n → Statement text n name args → Touches text n
  | creation {i} : CreationOf text n i → Touches text n
  | delete : Statement text b!"Context" b!"deleteVariable:" [n] → Touches text n
  | deleteNamespace {ns} : Statement text b!"Context" b!"deleteVariablesOfNamespace:" [ns] → InNamespace n ns → Touches text n
  | listNamespace {ns} : Statement text b!"Context" b!"listVariablesOfNamespace:" [ns] → InNamespace n ns → Touches text n
  | listVariables : Statement text b!"Context" b!"listVariables" [] → Touches text n
  | listNamespaces : Statement text b!"Context" b!"listNamespaces" [] → Touches text n

/-- The contexts have the same settings and the same variables among those in `N`. -/
def AgreeOn (N : Str → Prop) (c d : Ctx) : Prop := c.cfg = d.cfg ∧ ∀ n, N n → ∀ i, c.vars.lookup n = some i ↔ d.vars.lookup n = some i

/-- Two executions end in the same way as far as the variables in `N` are concerned. -/
def SameOn (N : Str → Prop) : Outcome (Ctx × Option Session × Str) → Outcome (Ctx × Option Session × Str) → Prop
  | .ub, .ub => True
  | .done (c, s, r), .done (c', s', r') => AgreeOn N c c' ∧ s = s' ∧ r = r'
  | _, _ => False

end Knuckle.Spec
