/-
Bytes, strings and results.

`std::string` is modelled as the list of its bytes and `char` as a byte (`UInt8`); where the signedness of `char`
matters (comparison of two `char`s) the byte is converted explicitly, see `schar` in `Verif.Model.Instance`.
-/
import Lean.Elab.Term

namespace Knuckle

/-- A `char` of the program. -/
abbrev Byte := UInt8

/-- A `std::string`: the finite sequence of its bytes (the terminator is not part of the list). -/
abbrev Str := List UInt8

open Lean in
/-- `b!"abc"` is the list of the bytes of the literal (ASCII only). -/
macro:max "b!" s:str : term => do
  let elems : Array (TSyntax `term) := (s.getString.toList.map fun c => (Syntax.mkNumLit (toString c.toNat) : TSyntax `num)).toArray.map fun n => ⟨n.raw⟩
  `(([$elems,*] : List UInt8))

open Lean in
/-- `c!"a"` is the byte of the one-character literal. -/
macro:max "c!" s:str : term => do
  let n : TSyntax `num := Syntax.mkNumLit (toString (s.getString.toList.headD 'a').toNat)
  `(($n : UInt8))

/-- The C strings the program throws: `src/exceptions.h:29-38`.  `unknown` is not thrown by the program itself: it stands
for any other C++ exception, which `Context::execute` turns into `EXC_UNKNOWN_ERROR` (`src/context.cpp:162-164`). -/
inductive Exc
  | invalidStatement | invalidArgument | invalidMessage | nameAlreadyUsed | unexistentVariable | wrongNumberOfArguments
  | invalidComparison | notAuthenticated | wrongPassword | unknown
deriving DecidableEq, Repr

/-- The texts of `src/exceptions.h:29-38`. -/
def Exc.text : Exc → Str
  | .invalidStatement => b!"SyntaxError: invalid statement."
  | .invalidArgument => b!"RuntimeError: invalid argument."
  | .invalidMessage => b!"RuntimeError: invalid message."
  | .nameAlreadyUsed => b!"RuntimeError: variable name already used."
  | .unexistentVariable => b!"RuntimeError: name cannot be resolved to a variable."
  | .wrongNumberOfArguments => b!"RuntimeError: wrong number of arguments."
  | .invalidComparison => b!"RuntimeError: cannot compare these two types."
  | .notAuthenticated => b!"AuthenticationError: not authenticated."
  | .wrongPassword => b!"AuthenticationError: wrong password."
  | .unknown => b!"RuntimeError: unknown error."

/-- The result of running a piece of C++: a value, a thrown exception, or undefined behaviour. -/
inductive Res (α : Type) where
  | ok (a : α)
  | err (e : Exc)
  | ub
deriving DecidableEq, Repr

namespace Res

/-- Sequencing: an exception or undefined behaviour ends the computation. -/
@[simp] def bind {α β : Type} : Res α → (α → Res β) → Res β
  | .ok a, f => f a
  | .err e, _ => .err e
  | .ub, _ => .ub

instance : Monad Res where
  pure := .ok
  bind := Res.bind

@[simp] theorem pure_def {α : Type} (a : α) : (pure a : Res α) = .ok a := rfl
@[simp] theorem bind_ok {α β : Type} (a : α) (f : α → Res β) : (Res.ok a >>= f) = f a := rfl
@[simp] theorem bind_err {α β : Type} (e : Exc) (f : α → Res β) : ((Res.err e : Res α) >>= f) = .err e := rfl
@[simp] theorem bind_ub {α β : Type} (f : α → Res β) : ((Res.ub : Res α) >>= f) = .ub := rfl

end Res

/-- What a completed run can be seen to do from outside, once exceptions are caught: a value or undefined behaviour. -/
inductive Outcome (α : Type) where
  | done (a : α)
  | ub
deriving DecidableEq, Repr

end Knuckle
