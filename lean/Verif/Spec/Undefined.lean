/-
The causes of undefined behaviour.
-/
import Verif.Spec.Errors

namespace Knuckle.Spec

/-- Why the request `text` may have undefined behaviour in the context `c`, with session `s`. -/
inductive UndefinedCause (c : Ctx) (s : Option Session) (text : Str) : Prop
  /-- an argument is a number out of the 32-bit range, where an integer is read -/
  | literal {a name args ks} : Statement text a name args → Understands c a name ks → args.length = ks.length →
      (∃ q ∈ ks.zip args, Overflows q.1 q.2) → UndefinedCause c s text
  /-- an arithmetic operation on an Integer variable whose result is not a 32-bit integer, or a division by zero -/
  | arithmetic {n v name a x m} : Statement text n name [a] → Holds c n (.integer v) → NumDenotes a x →
      (m = IntMsg.add x ∨ m = .subtract x ∨ m = .multiplyBy x ∨ m = .divideBy x) → IntSays name [a] m →
      intMeaning c.cfg.eps v m = .undefined → UndefinedCause c s text
  /-- sorting floats that the comparison with the tolerance does not order -/
  | sort {n l} : Statement text n b!"sort" [] → Holds c n (.vector b!"Float" l) → ¬ StrictWeakOrder (less c.cfg.eps) l →
      UndefinedCause c s text
  /-- searching a set of floats that the comparison with the tolerance does not order -/
  | set {n l name a o} : Statement text n name [a] → name ∈ [b!"contains?", b!"add:", b!"remove:"] →
      Holds c n (.set b!"Float" l) → Denotes b!"Float" a o → ¬ Searchable (less c.cfg.eps) l o → UndefinedCause c s text
  /-- searching a dictionary whose keys are floats that the comparison with the tolerance does not order -/
  | dictionary {n u l name args a o} : Statement text n name args →
      ((args = [a] ∧ name ∈ [b!"containsKey?", b!"getValueForKey:", b!"removeKey:"]) ∨
        ∃ b v, args = [b, a] ∧ name = b!"associateValue:withKey:" ∧ Denotes u b v) →
      Holds c n (.dictionary b!"Float" u l) → Denotes b!"Float" a o → ¬ Searchable (less c.cfg.eps) (l.map (·.1)) o →
      UndefinedCause c s text
  /-- a statement to the connection where there is none -/
  | connection {name args} : Statement text b!"Connection" name args → s = none → UndefinedCause c s text

end Knuckle.Spec
