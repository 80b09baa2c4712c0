/-
The sizes the program computes with.
-/
import Verif.Spec.Server
import Verif.Spec.Answers
import Verif.Spec.Storage

namespace Knuckle.Spec

/-- All bytes that arrived, at all connections. -/
def arrived : List Event → Nat
  | [] => 0
  | .recv _ bytes :: es => bytes.length + arrived es
  | _ :: es => arrived es

/-- The sizes of a value: the lengths of its strings, the number of its elements. -/
def sizesOf (i : Inst) : List Nat := (cellsOf i - 1) :: (textsOf i).map List.length

/-- Everything the server holds is smaller than 2^31, and the stack has room for the lines that have arrived. -/
structure Small (stack : Nat) (s : Server) : Prop where
  data : ∀ n i, Holds s.ctx n i → n.length < 2147483648 ∧ ∀ z ∈ sizesOf i, z < 2147483648
  lines : ∀ k ∈ s.conns, k.inbuf.length < 2147483648 ∧ k.inbuf.length / 4 + 1 ≤ stack

end Knuckle.Spec
