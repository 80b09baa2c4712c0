/-
The messages that only read.
-/
import Verif.Model.Bytes

namespace Knuckle.Spec

/-- The message only reads: one of its keywords ends in a question mark, or it is one of the listed names. -/
def Question (name : Str) : Prop :=
  c!"?" ∈ name ∨ name ∈ [b!"get", b!"size", b!"length", b!"keys", b!"values", b!"first:", b!"last:", b!"atIndex:",
    b!"count:", b!"firstIndexOf:", b!"firstIndexOf:fromIndex:", b!"allIndexesOf:", b!"sliceFromIndex:",
    b!"sliceFromIndex:toIndex:", b!"substringFromIndex:", b!"substringFromIndex:toIndex:", b!"getValueForKey:",
    b!"listNamespaces", b!"listVariables", b!"listVariablesOfNamespace:", b!"getFloatPrecision",
    b!"getFloatComparisonTolerance"]

instance (name : Str) : Decidable (Question name) := by unfold Question; infer_instance

end Knuckle.Spec
