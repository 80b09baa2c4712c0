/-
The meaning of a message to a variable, put together from the meanings for the single types, and the values a variable can
have.
-/
import Verif.Spec.Signatures

namespace Knuckle.Spec

/-- Apply a function to the value of a result. -/
def Result.map {σ τ : Type} (f : σ → τ) : Result σ → Result τ
  | .gives v r => .gives (f v) r
  | .refuses => .refuses
  | .undefined => .undefined

/-- `Behaves cfg i name args r`: `name` with `args` is a message an object with value `i` understands, all arguments are
literals of the right type, and `r` is a result it may have.  Only `sort` may have several. -/
inductive Behaves (cfg : Cfg) : Inst → Str → List Str → Result Inst → Prop
  | boolean {v name args m} : BoolSays name args m → Behaves cfg (.boolean v) name args ((boolMeaning v m).map .boolean)
  | character {v name args m} : CharSays name args m →
      Behaves cfg (.character v) name args ((charMeaning v m).map .character)
  | integer {v name args m} : IntSays name args m →
      Behaves cfg (.integer v) name args ((intMeaning cfg.eps v m).map .integer)
  | float {v name args m} : FltSays name args m → Behaves cfg (.float v) name args ((fltMeaning cfg v m).map .float)
  | string {v name args m} : StrSays name args m → Behaves cfg (.string v) name args ((strMeaning v m).map .string)
  | vector {t l name args m} : VecSays t name args m →
      Behaves cfg (.vector t l) name args ((vecMeaning cfg l m).map (.vector t))
  | sort {t l l'} : StrictWeakOrder (less cfg.eps) l → l'.Perm l → (l'.Pairwise fun a b => ¬ less cfg.eps b a) →
      Behaves cfg (.vector t l) b!"sort" [] (.gives (.vector t l') b!"null")
  | sortUndefined {t l} : ¬ StrictWeakOrder (less cfg.eps) l → Behaves cfg (.vector t l) b!"sort" [] .undefined
  | set {t l name args m} : SetSays t name args m → Behaves cfg (.set t l) name args ((setMeaning cfg l m).map (.set t))
  | dictionary {t u l name args m} : DictSays t u name args m →
      Behaves cfg (.dictionary t u l) name args ((dictMeaning cfg l m).map (.dictionary t u))

/-- The values a variable can hold: elements have the declared types, integers have 32 bits, floats are `float`s; sets and
dictionaries that are not over floats have their keys in strictly ascending order. -/
def WellTyped : Inst → Prop
  | .boolean _ => True
  | .character _ => True
  | .integer n => IsInt32 n
  | .float x => x.toF32 = x
  | .string _ => True
  | .vector t l => ObjectType t ∧ ∀ x ∈ l, HasType t x
  | .set t l => ObjectType t ∧ (∀ x ∈ l, HasType t x) ∧ (t ≠ b!"Float" → l.Pairwise fun a b => natLt a b)
  | .dictionary t u l => ObjectType t ∧ ObjectType u ∧ (∀ x ∈ l, HasType t x.1 ∧ HasType u x.2) ∧
      (t ≠ b!"Float" → l.Pairwise fun a b => natLt a.1 b.1)

end Knuckle.Spec
