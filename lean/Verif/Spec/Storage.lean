/-
How much a context stores.
-/
import Verif.Spec.Effect

namespace Knuckle.Spec

/-- The objects a value consists of: itself and its elements (an association of a dictionary counts as one). -/
def cellsOf : Inst → Nat
  | .vector _ l => 1 + l.length
  | .set _ l => 1 + l.length
  | .dictionary _ _ l => 1 + l.length
  | _ => 1

/-- The number of objects in a context. -/
def cells (c : Ctx) : Nat := (c.vars.map fun v => cellsOf v.2).sum

/-- The text of an element, if it is a string. -/
def textOf : Obj → Str
  | .string v => v
  | _ => []

/-- The texts in a value. -/
def textsOf : Inst → List Str
  | .string v => [v]
  | .vector _ l => l.map textOf
  | .set _ l => l.map textOf
  | .dictionary _ _ l => l.map (fun p => textOf p.1) ++ l.map fun p => textOf p.2
  | _ => []

/-- All texts in a context: names of variables, strings, elements that are strings. -/
def texts (c : Ctx) : List Str := c.vars.flatMap fun v => v.1 :: textsOf v.2

/-- Their total length. -/
def storedBytes (c : Ctx) : Nat := ((texts c).map List.length).sum

/-- The bytes of the requests of a history. -/
def sentBytes (h : List (Str × Str)) : Nat := (h.map fun q => q.1.length).sum

end Knuckle.Spec
