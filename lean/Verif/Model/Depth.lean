/-
The recognizer of statements once more, keeping track of the call stack: `Grammar::is_keyword_message` is the only function
of the program that calls itself.  The call is not the last thing the function does (it is in the condition inside a
loop), and the text it is called with, `str_utils::ltrim(str.substr(i + 1))`, is a temporary string that lives until the
call returns.  So each active call holds a stack frame and a copy of the text it was called with.
-/
import Verif.Model.Parser

namespace Knuckle

/-- A result; the greatest number of calls of `is_keyword_message` that were active at the same time; the greatest number
of bytes that the texts of active calls had together. -/
abbrev Tracked (α : Type) := α × Nat × Nat

/-- The loop of `Grammar::is_keyword_message`, `src/grammar.cpp:231-234`; `rec` is the recursive call, `pre` is
`str.substr(0, i)`.  Calls made one after the other are not active at the same time. -/
def keywordLoopD (rec : Str → Tracked Bool) (pre : Str) : Str → Tracked Bool
  | [] => (false, 0, 0)
  | c :: cs =>
    if isSpace c && isKeywordMessagePart pre then
      let r := rec (ltrim cs)
      if r.1 then r
      else
        let q := keywordLoopD rec (pre ++ [c]) cs
        (q.1, max r.2.1 q.2.1, max r.2.2 q.2.2)
    else keywordLoopD rec (pre ++ [c]) cs

/-- `Grammar::is_keyword_message`, `src/grammar.cpp:228-236` (`fuel` as in `isKeywordMessageF`). -/
def isKeywordMessageD : Nat → Str → Tracked Bool
  | 0, _ => (false, 0, 0)
  | fuel + 1, s =>
    if isKeywordMessagePart s then (true, 1, s.length)
    else
      let q := keywordLoopD (isKeywordMessageD fuel) [] s
      (q.1, 1 + q.2.1, s.length + q.2.2)

/-- The loop of `Grammar::is_statement`, `src/grammar.cpp:243-247`. -/
def statementLoopD (pre : Str) : Str → Tracked Bool
  | [] => (false, 0, 0)
  | c :: cs =>
    if isSpace c && isActor pre then
      let m := ltrim cs
      if isUnaryMessage m then (true, 0, 0) else isKeywordMessageD (m.length + 1) m
    else statementLoopD (pre ++ [c]) cs

/-- `Grammar::is_statement`, `src/grammar.cpp:238-249`. -/
def isStatementD (s : Str) : Tracked Bool :=
  let t := trim s
  if t.length == 0 || t.getD (t.length - 1) 0 != c!";" then (false, 0, 0)
  else statementLoopD [] (rtrim (t.take (t.length - 1)))

/-- `Parser::Parser`, `src/parser.cpp:31-61`: it first calls `is_statement` (the rest does not recurse). -/
def parseD (input : Str) : Tracked (Res Parsed) :=
  let b := isStatementD input
  (if b.1 then parse input else .err .invalidStatement, b.2)

end Knuckle
