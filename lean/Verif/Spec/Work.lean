/-
The measures in which the work of a request is stated.
-/
import Verif.Spec.Storage

namespace Knuckle.Spec

/-- How much there is: three for each object, one for each byte of a name or text. -/
def held (c : Ctx) : Nat := 3 * cells c + storedBytes c

/-- The bytes of an element that is a string, and one. -/
def bulk (o : Obj) : Nat := (textOf o).length + 1

end Knuckle.Spec
