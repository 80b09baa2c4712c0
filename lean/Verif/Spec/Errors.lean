/-
Which errors there are for.
-/
import Verif.Spec.Answers

namespace Knuckle.Spec

/-- The messages the context understands. -/
def contextSignature : List (Str × List ArgKind) := [
  (b!"listNamespaces", []), (b!"listVariables", []), (b!"listVariablesOfNamespace:", [.namespace]),
  (b!"deleteVariable:", [.name]), (b!"deleteVariablesOfNamespace:", [.namespace]), (b!"getFloatPrecision", []),
  (b!"setFloatPrecision:", [.lit b!"Integer"]), (b!"getFloatComparisonTolerance", []),
  (b!"setFloatComparisonTolerance:", [.lit b!"Float"])]

/-- The messages the connection understands. -/
def connectionSignature : List (Str × List ArgKind) := [
  (b!"close", []), (b!"authenticateWithPassword:", [.lit b!"String"])]

/-- The receiver of the statement exists. -/
def Exists (c : Ctx) (s : Option Session) (actor : Str) : Prop :=
  IsType actor ∨ actor = b!"Context" ∨ (actor = b!"Connection" ∧ s ≠ none) ∨ ∃ i, Holds c actor i

/-- The receiver understands the message `name`, with arguments of these kinds. -/
inductive Understands (c : Ctx) : Str → Str → List ArgKind → Prop
  | type {a name ks} : Creation a name ks → Understands c a name ks
  | context {name ks} : (name, ks) ∈ contextSignature → Understands c b!"Context" name ks
  | connection {name ks} : (name, ks) ∈ connectionSignature → Understands c b!"Connection" name ks
  | var {n i name ks} : Holds c n i → (name, ks) ∈ signature i → Understands c n name ks

/-- The value of an argument is not in the domain of the message. -/
inductive OutOfDomain (c : Ctx) : Str → Str → List Str → Prop
  /-- an index or a number of elements is out of range -/
  | index {n i name args} : Holds c n i → Behaves c.cfg i name args .refuses → OutOfDomain c n name args
  | precision {a p} : Denotes b!"Integer" a (.integer p) → ¬ 0 < p → OutOfDomain c b!"Context" b!"setFloatPrecision:" [a]
  | tolerance {a} : FloatValue a → (atof a).toF32.lt (.fin false 0) = true →
      OutOfDomain c b!"Context" b!"setFloatComparisonTolerance:" [a]

end Knuckle.Spec
