/-
Model of `src/parser.cpp`.

The C++ loops have no bounds checks.  A `std::string` of size `n` may be indexed at `n` (the terminator, byte 0) but not
beyond; each loop below is a recursion over the not yet visited suffix and reports undefined behaviour (`Res.ub`) where
the C++ would index beyond the terminator.
-/
import Verif.Model.Grammar

namespace Knuckle

/-- What `Parser` stores, `src/parser.h:31-34`. -/
structure Parsed where
  actor : Str
  name : Str
  args : List Str
deriving DecidableEq, Repr

/-- `src/parser.cpp:37-38`: advance while the byte is not a space or the prefix is not an actor.  On the terminator the
condition "not a space" holds, so the next step would index beyond it. Result: the prefix and what follows the space. -/
def actorLoop (pre : Str) : Str → Res (Str × Str)
  | [] => .ub
  | c :: cs => if !isSpace c || !isActor pre then actorLoop (pre ++ [c]) cs else .ok (pre, cs)

/-- `src/parser.cpp:46-48`: advance to the first `:` or `?`; the token includes it. -/
def tokenLoop (pre : Str) : Str → Res (Str × Str)
  | [] => .ub
  | c :: cs => if c != c!":" && c != c!"?" then tokenLoop (pre ++ [c]) cs else .ok (pre ++ [c], cs)

/-- `src/parser.cpp:52-54`: advance to the end or to the first space such that the text so far is an argument. -/
def argLoop (pre : Str) : Str → Str × Str
  | [] => (pre, [])
  | c :: cs => if !isSpace c || !isKeywordMessageArgument pre then argLoop (pre ++ [c]) cs else (pre, c :: cs)

/-- The `while (j < int(message.size()))` loop, `src/parser.cpp:45-59`, on the suffix starting at `j`.  Each iteration
consumes at least the token, so `fuel = message.size()` is enough (proved: `parse` never returns `ub`). -/
def partsLoop : Nat → Str → Str → List Str → Res (Str × List Str)
  | _, [], name, args => .ok (name, args)
  | 0, _ :: _, _, _ => .ub
  | fuel + 1, c :: cs, name, args => do
    let (tok, rest) ← tokenLoop [] (c :: cs)
    let (arg, rest) := argLoop [] (ltrim rest)
    partsLoop fuel (ltrim rest) (name ++ tok) (args ++ [arg])

/-- `Parser::Parser`, `src/parser.cpp:31-61`. -/
def parse (input : Str) : Res Parsed :=
  if !isStatement input then .err .invalidStatement
  else do
    let t := trim input
    let t := rtrim (t.take (t.length - 1))
    let (actor, rest) ← actorLoop [] t
    let message := ltrim rest
    if isUnaryMessage message then .ok ⟨actor, message, []⟩
    else do
      let (name, args) ← partsLoop message.length message [] []
      .ok ⟨actor, name, args⟩

end Knuckle
