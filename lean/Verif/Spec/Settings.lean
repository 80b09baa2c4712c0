/-
What the two settings, the float precision and the float comparison tolerance, can influence.
-/
import Verif.Spec.Answers

namespace Knuckle.Spec

/-- The same variables with the same values, and the same tolerance; only the precision may differ. -/
def SameButPrecision (c d : Ctx) : Prop := c.vars = d.vars ∧ c.cfg.eps = d.cfg.eps

/-- The same variables with the same values, and the same precision; only the tolerance may differ. -/
def SameButTolerance (c d : Ctx) : Prop := c.vars = d.vars ∧ c.cfg.prec = d.cfg.prec

/-- Two executions are both undefined, or both end, with contexts related by `R`, the same session, and, if `sameReply`
holds, the same reply. -/
def EndAlike (R : Ctx → Ctx → Prop) (sameReply : Prop) :
    Outcome (Ctx × Option Session × Str) → Outcome (Ctx × Option Session × Str) → Prop
  | .ub, .ub => True
  | .done (c, s, r), .done (c', s', r') => R c c' ∧ s = s' ∧ (sameReply → r = r')
  | _, _ => False

/-- The variable is a Float or a container with floats in it. -/
def HasFloats : Inst → Prop
  | .float _ => True
  | .vector t _ => t = b!"Float"
  | .set t _ => t = b!"Float"
  | .dictionary t u _ => t = b!"Float" ∨ u = b!"Float"
  | _ => False

/-- The request asks for the text of a float, or for a setting. -/
inductive ShowsFloats (c : Ctx) (text : Str) : Prop
  | variable {n name args i} : Statement text n name args → Holds c n i → HasFloats i →
      name ∈ [b!"get", b!"atIndex:", b!"first:", b!"last:", b!"sliceFromIndex:", b!"sliceFromIndex:toIndex:", b!"popBack",
        b!"popFront", b!"popAtIndex:", b!"keys", b!"values", b!"getValueForKey:"] → ShowsFloats c text
  | precision {args} : Statement text b!"Context" b!"getFloatPrecision" args → ShowsFloats c text
  | tolerance {args} : Statement text b!"Context" b!"getFloatComparisonTolerance" args → ShowsFloats c text

/-- The request asks how a float compares with others, or for the tolerance. -/
inductive ComparesFloats (c : Ctx) (text : Str) : Prop
  | float {n name args x} : Statement text n name args → Holds c n (.float x) →
      name ∈ [b!"isEqualTo?", b!"isLessThan?", b!"isLessThanOrEqualTo?", b!"isGreaterThan?", b!"isGreaterThanOrEqualTo?"] →
      ComparesFloats c text
  | integer {n name a k} : Statement text n name [a] → Holds c n (.integer k) → ¬ IntegerValue a →
      name ∈ [b!"isEqualTo?", b!"isLessThan?", b!"isLessThanOrEqualTo?", b!"isGreaterThan?", b!"isGreaterThanOrEqualTo?"] →
      ComparesFloats c text
  | vector {n name args l} : Statement text n name args → Holds c n (.vector b!"Float" l) →
      name ∈ [b!"contains?", b!"contains?fromIndex:", b!"count:", b!"firstIndexOf:", b!"firstIndexOf:fromIndex:",
        b!"allIndexesOf:"] → ComparesFloats c text
  | tolerance {args} : Statement text b!"Context" b!"getFloatComparisonTolerance" args → ComparesFloats c text

/-- The request makes a container look for a float, or sort its floats. -/
inductive SearchesFloats (c : Ctx) (text : Str) : Prop
  | vector {n name args l} : Statement text n name args → Holds c n (.vector b!"Float" l) →
      name ∈ [b!"removeFirst:", b!"removeFirst:fromIndex:", b!"removeAll:", b!"replaceFirst:with:",
        b!"replaceFirst:fromIndex:with:", b!"replaceAll:with:", b!"sort"] → SearchesFloats c text
  | set {n name args l} : Statement text n name args → Holds c n (.set b!"Float" l) →
      name ∈ [b!"contains?", b!"add:", b!"remove:"] → SearchesFloats c text
  | dictionary {n name args u l} : Statement text n name args → Holds c n (.dictionary b!"Float" u l) →
      name ∈ [b!"containsKey?", b!"getValueForKey:", b!"associateValue:withKey:", b!"removeKey:"] → SearchesFloats c text

end Knuckle.Spec
