/-
Numbers that the tolerance does not confuse.
-/
import Verif.Spec.Reals
import Verif.Spec.Settings

namespace Knuckle.Spec

/-- If `x` and `y` are numbers, they are equal or at least twice the tolerance `e` apart. -/
def Apart (e x y : Fl) : Prop :=
  ∀ p q r, number x = some p → number y = some q → number e = some r → p = q ∨ 2 * r ≤ |p - q|

/-- The floats that a message with these arguments to this variable can compare: those in the variable (the keys of a
dictionary), an Integer as a `float`, and the one denoted by the argument that is compared: the only one of a number or a set, the
first one of a vector, the last one of a dictionary. -/
inductive Compared : Inst → List Str → Fl → Prop
  | float {x args} : Compared (.float x) args x
  | floatArgument {v a x} : Denotes b!"Float" a (.float x) → Compared (.float v) [a] x
  | integer {k : ℤ} {args x} : Rounds single (decide (k < 0)) (k : ℚ) x → Compared (.integer k) args x
  | integerArgument {k : ℤ} {a x} : Denotes b!"Float" a (.float x) → Compared (.integer k) [a] x
  | vector {l args x} : .float x ∈ l → Compared (.vector b!"Float" l) args x
  | vectorArgument {l a args x} : Denotes b!"Float" a (.float x) → Compared (.vector b!"Float" l) (a :: args) x
  | set {l args x} : .float x ∈ l → Compared (.set b!"Float" l) args x
  | setArgument {l a x} : Denotes b!"Float" a (.float x) → Compared (.set b!"Float" l) [a] x
  | dictionary {u l args x v} : (.float x, v) ∈ l → Compared (.dictionary b!"Float" u l) args x
  | dictionaryArgument {u l a args x} : Denotes b!"Float" a (.float x) → Compared (.dictionary b!"Float" u l) (args ++ [a]) x

/-- The floats that the message can compare are far apart, as seen from the tolerance `e`. -/
def FarApart (e : Fl) (i : Inst) (args : List Str) : Prop := ∀ x y, Compared i args x → Compared i args y → Apart e x y

/-- The tolerance is a number, and not negative. -/
def Sensible (e : Fl) : Prop := ∃ r, number e = some r ∧ 0 ≤ r

/-- The second tolerance is at least the first: both are non-negative numbers, or the second is infinite and the first is not negative. -/
inductive Wider : Fl → Fl → Prop
  | numbers {e e' : Fl} {r r' : ℚ} : number e = some r → number e' = some r' → 0 ≤ r → r ≤ r' → Wider e e'
  | infinite {e : Fl} {r : ℚ} : number e = some r → 0 ≤ r → Wider e (.inf false)

/-- The request sorts a vector of floats. -/
def SortsFloats (c : Ctx) (text : Str) : Prop :=
  ∃ n l, Statement text n b!"sort" [] ∧ Holds c n (.vector b!"Float" l)

/-- The request sorts a vector of floats, two of which are different but count as equal. -/
def SortsTies (c : Ctx) (text : Str) : Prop :=
  ∃ n l x y, Statement text n b!"sort" [] ∧ Holds c n (.vector b!"Float" l) ∧ .float x ∈ l ∧ .float y ∈ l ∧ x ≠ y ∧
    ¬ below c.cfg.eps x y ∧ ¬ below c.cfg.eps y x

/-- The request asks for the tolerance. -/
def AsksTolerance (text : Str) : Prop := ∃ args, Statement text b!"Context" b!"getFloatComparisonTolerance" args

end Knuckle.Spec
