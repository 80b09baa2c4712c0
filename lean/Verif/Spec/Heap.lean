/-
The instances in memory and the pointers to them.
-/
import Verif.Model.Heap
import Verif.Spec.Effect

namespace Knuckle.Spec

open Heap (Addr HCtx PosSort)

/-- Execute requests one after the other, each with the password of the server and a session: for each, the session
afterwards and the reply.  Undefined behaviour ends the list with `none`. -/
def transcript {σ : Type} (exec : Str → σ → Option Session → Str → Outcome (σ × Option Session × Str)) :
    σ → List (Str × Option Session × Str) → List (Option (Option Session × Str))
  | _, [] => []
  | c, (pwd, s, text) :: qs => match exec pwd c s text with
    | .done (c', s', r) => some (s', r) :: transcript exec c' qs
    | .ub => [none]

/-- The requests of `q`, in order, from any sessions, lead the program with pointers from `h` to `h'` with the given
replies. -/
inductive HeapHistory [PosSort] : HCtx → List (Str × Str) → HCtx → Prop
  | nil {h : HCtx} : HeapHistory h [] h
  | cons {pwd : Str} {h h' h'' : HCtx} {s s' : Option Session} {text r : Str} {q : List (Str × Str)} :
      Heap.execute pwd h s text = .done (h', s', r) → HeapHistory h' q h'' → HeapHistory h ((text, r) :: q) h''

/-- There is an instance at this address. -/
def Live (h : HCtx) (a : Addr) : Prop := ∃ c n, h.mem.cells a = some (c, n)

/-- All pointers: those of the variables, and those in the containers the variables lead to. -/
def pointers (h : HCtx) : List Addr :=
  h.vars.map (·.2) ++ h.vars.flatMap fun v => match h.mem.cells v.2 with
    | some (c, _) => c.children
    | none => []

/-- The instances a value consists of: itself and its elements, two for an association of a dictionary. -/
def instances : Inst → Nat
  | .vector _ l => 1 + l.length
  | .set _ l => 1 + l.length
  | .dictionary _ _ l => 1 + 2 * l.length
  | _ => 1

end Knuckle.Spec
