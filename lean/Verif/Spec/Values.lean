/-
What the literals of the language denote, and which values have which type.
-/
import Verif.Spec.Grammar
import Verif.Model.Instance

namespace Knuckle.Spec

/-- The number written by a string of decimal digits. -/
def decimal : Str → Nat
  | [] => 0
  | c :: cs => (c.toNat - 48) * 10 ^ cs.length + decimal cs

/-- `s` is an integer literal for the (mathematical) integer `n`. -/
def IntLiteral (s : Str) (n : Int) : Prop :=
  ∃ sg ds, s = sg ++ ds ∧ Sign sg ∧ ds ≠ [] ∧ Digits ds ∧
    n = if sg = b!"-" then -(decimal ds : Int) else (decimal ds : Int)

/-- `Unquoted b v`: the body `b` of a string literal stands for `v`: a backslash directly before a quote is dropped, every
other byte stands for itself. -/
inductive Unquoted : Str → Str → Prop
  | nil : Unquoted [] []
  | quote {b v : Str} : Unquoted b v → Unquoted (c!"\\" :: c!"\"" :: b) (c!"\"" :: v)
  | other {c : Byte} {b v : Str} : c ≠ c!"\"" → (c = c!"\\" → b.head? ≠ some c!"\"") → Unquoted b v →
      Unquoted (c :: b) (c :: v)

/-- `s` is a string literal for the byte sequence `v`. -/
def StringLiteral (s v : Str) : Prop := ∃ b, s = c!"\"" :: (b ++ [c!"\""]) ∧ StringBody b ∧ Unquoted b v

/-- 32-bit integers. -/
def IsInt32 (n : Int) : Prop := -2 ^ 31 ≤ n ∧ n < 2 ^ 31

/-- `Denotes t s o`: as a literal for type `t`, the text `s` denotes the value `o`.  A Float literal denotes the `double`
nearest to the written number, converted to `float`; where an Integer is expected it denotes that `double` truncated. -/
inductive Denotes : Str → Str → Obj → Prop
  | true : Denotes b!"Boolean" b!"true" (.boolean true)
  | false : Denotes b!"Boolean" b!"false" (.boolean false)
  | character (c : Byte) : Denotes b!"Character" [c!"'", c, c!"'"] (.character c)
  | integer {s : Str} {n : Int} : IntLiteral s n → IsInt32 n → Denotes b!"Integer" s (.integer n)
  | truncated {s : Str} {n : Int} : FloatValue s → ¬ IntegerValue s → (atof s).toInt = .ok n →
      Denotes b!"Integer" s (.integer n)
  | float {s : Str} : FloatValue s → Denotes b!"Float" s (.float (atof s).toF32)
  | string {s v : Str} : StringLiteral s v → Denotes b!"String" s (.string v)

/-- `s` is a literal of a form accepted for type `t`. -/
def LiteralOf (t s : Str) : Prop :=
  (t = b!"Boolean" ∧ BooleanValue s) ∨ (t = b!"Character" ∧ CharacterValue s) ∨
  (t = b!"Integer" ∧ (IntegerValue s ∨ FloatValue s)) ∨ (t = b!"Float" ∧ FloatValue s) ∨
  (t = b!"String" ∧ StringValue s)

/-- `s` is a numeric literal given where an Integer is expected, whose value is not a 32-bit integer: reading it is
undefined behaviour (`atoi` or the conversion from `double`). -/
def OutOfRange (s : Str) : Prop :=
  (∃ n, IntLiteral s n ∧ ¬ IsInt32 n) ∨ (FloatValue s ∧ ¬ IntegerValue s ∧ (atof s).toInt = .ub)

/-- A value that a variable or container element can have: integers have 32 bits, floats are `float`s. -/
def ValueOk : Obj → Prop
  | .integer n => IsInt32 n
  | .float x => x.toF32 = x
  | _ => True

/-- `o` is a value of type `t`. -/
def HasType (t : Str) (o : Obj) : Prop := o.type = t ∧ ValueOk o

/-- When two values of one type count as equal: identical, or, for floats, if their difference (in `float`) is neither
below minus the tolerance nor above the tolerance. -/
def same (eps : Fl) : Obj → Obj → Bool
  | .float x, .float y => !(x.sub f32 y).lt eps.neg && !eps.lt (x.sub f32 y)
  | a, b => decide (a = b)

/-- The natural order of Booleans, Characters (as signed bytes), Integers and Strings (bytewise). -/
def natLt : Obj → Obj → Bool
  | .boolean a, .boolean b => decide (a = false ∧ b = true)
  | .character a, .character b => decide (schar a < schar b)
  | .integer a, .integer b => decide (a < b)
  | .string a, .string b => decide (a < b)
  | _, _ => false

end Knuckle.Spec
