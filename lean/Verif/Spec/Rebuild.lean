/-
Which data a server can hold, and requests that rebuild it.
-/
import Verif.Spec.Plain
import Verif.Spec.Reals

namespace Knuckle.Spec

/-- The value can be written as a literal for type `t`. -/
def Writable (t : Str) (o : Obj) : Prop := ∃ a, Denotes t a o

/-- The order of values of one type; floats are compared as numbers. -/
def Before : Obj → Obj → Prop
  | .float x, .float y => Less x y
  | a, b => natLt a b = true

/-- The values a variable can have. -/
def Proper : Inst → Prop
  | .boolean _ => True
  | .character _ => True
  | .integer n => IsInt32 n
  | .float x => x.toF32 = x
  | .string _ => True
  | .vector t l => ObjectType t ∧ ∀ o ∈ l, Writable t o
  | .set t l => ObjectType t ∧ (∀ o ∈ l, Writable t o) ∧ l.Pairwise Before
  | .dictionary t u l => ObjectType t ∧ ObjectType u ∧ (∀ p ∈ l, Writable t p.1 ∧ Writable u p.2) ∧
      l.Pairwise fun p q => Before p.1 q.1

/-- The variables a server can hold: in ascending order of their names, which are names of variables, with proper values. -/
def ProperData (l : List (Str × Inst)) : Prop :=
  (l.Pairwise fun v w => v.1 < w.1) ∧ ∀ v ∈ l, Variable v.1 ∧ Proper v.2

/-- A literal for a value: as it is printed, floats with 46 decimals; an infinity as a number that is too large. -/
def literal : Obj → Str
  | .float (.inf neg) => if neg then b!"-1e99" else b!"1e99"
  | .float x => fmtFixed 46 x
  | .integer n => intStr n
  | .string v => quoted v
  | .boolean b => if b then b!"true" else b!"false"
  | .character c => [c!"'", c, c!"'"]

/-- The request that creates `n` with a value of an object type. -/
def createValue (t n : Str) (o : Obj) : Str := request t [(b!"create:", n), (b!"withValue:", literal o)]

/-- Requests that create the variable `n` with the value `i`. -/
def rebuild (n : Str) : Inst → List Str
  | .boolean v => [createValue b!"Boolean" n (.boolean v)]
  | .character v => [createValue b!"Character" n (.character v)]
  | .integer v => [createValue b!"Integer" n (.integer v)]
  | .float .nan => [createValue b!"Float" n (.float (.inf false)), request n [(b!"multiplyBy:", b!"0")]]
  | .float v => [createValue b!"Float" n (.float v)]
  | .string v => request b!"String" [(b!"create:", n)] :: v.map fun b => request n [(b!"pushBack:", [c!"'", b, c!"'"])]
  | .vector t l => request (b!"Vector<" ++ (t ++ b!">")) [(b!"create:", n)] :: l.map fun o => request n [(b!"pushBack:", literal o)]
  | .set t l => request (b!"Set<" ++ (t ++ b!">")) [(b!"create:", n)] :: l.map fun o => request n [(b!"add:", literal o)]
  | .dictionary t u l => request (b!"Dictionary<" ++ (t ++ (b!"," ++ (u ++ b!">")))) [(b!"create:", n)] ::
      l.map fun p => request n [(b!"associateValue:", literal p.2), (b!"withKey:", literal p.1)]

/-- Requests that create all these variables. -/
def rebuildAll (l : List (Str × Inst)) : List Str := l.flatMap fun v => rebuild v.1 v.2

/-- The requests that copy the data and settings of `c` to an empty server: tolerance zero, the variables, the settings. -/
def backup (c : Ctx) : List Str :=
  request b!"Context" [(b!"setFloatComparisonTolerance:", b!"0")] :: (rebuildAll c.vars ++
    [request b!"Context" [(b!"setFloatComparisonTolerance:", literal (.float c.cfg.eps))],
     request b!"Context" [(b!"setFloatPrecision:", intStr c.cfg.prec)]])

end Knuckle.Spec
