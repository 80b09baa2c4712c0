/-
The parser once more, counting steps: the functions of `Verif.Model.Grammar` and `Verif.Model.Parser` that contain nested
loops or recursion, with the same control flow, paired with the number of steps.

What counts: one step per iteration of a loop, and for every call of a recognizer, trimming function or `substr` on a text
of `n` bytes `n + 1` steps.  (The recognizers called this way, `is_actor`, `is_unary_message`, `is_keyword_message_part`,
`is_keyword_message_argument`, consist of a fixed number of loops over their text, so they take a number of machine steps
proportional to that.  The backward loop of `is_string_value`, `src/grammar.cpp:118-125`, stops at the byte before the run of
backslashes before the quote, so it visits each byte once for all quotes together.)
-/
import Verif.Model.Parser

namespace Knuckle

/-- A result with the number of steps it took. -/
abbrev Counted (α : Type) := α × Nat

/-- A call on a text of this many bytes. -/
def call (s : Str) : Nat := s.length + 1

/-- The loop of `Grammar::is_keyword_message`, `src/grammar.cpp:231-234`; `rec` is the recursive call, `pre` is
`str.substr(0, i)`. -/
def keywordLoopC (rec : Str → Counted Bool) (pre : Str) : Str → Counted Bool
  | [] => (false, 0)
  | c :: cs =>
    if isSpace c then
      if isKeywordMessagePart pre then
        let r := rec (ltrim cs)
        if r.1 then (true, 1 + call pre + call cs + r.2)
        else
          let q := keywordLoopC rec (pre ++ [c]) cs
          (q.1, 1 + call pre + call cs + r.2 + q.2)
      else
        let q := keywordLoopC rec (pre ++ [c]) cs
        (q.1, 1 + call pre + q.2)
    else
      let q := keywordLoopC rec (pre ++ [c]) cs
      (q.1, 1 + q.2)

/-- `Grammar::is_keyword_message`, `src/grammar.cpp:228-236` (`fuel` as in `isKeywordMessageF`). -/
def isKeywordMessageC : Nat → Str → Counted Bool
  | 0, _ => (false, 0)
  | fuel + 1, s =>
    if isKeywordMessagePart s then (true, call s)
    else
      let q := keywordLoopC (isKeywordMessageC fuel) [] s
      (q.1, call s + q.2)

/-- The loop of `Grammar::is_statement`, `src/grammar.cpp:243-247`. -/
def statementLoopC (pre : Str) : Str → Counted Bool
  | [] => (false, 0)
  | c :: cs =>
    if isSpace c then
      if isActor pre then
        let m := ltrim cs
        if isUnaryMessage m then (true, 1 + call pre + call cs + call m)
        else
          let q := isKeywordMessageC (m.length + 1) m
          (q.1, 1 + call pre + call cs + call m + q.2)
      else
        let q := statementLoopC (pre ++ [c]) cs
        (q.1, 1 + call pre + q.2)
    else
      let q := statementLoopC (pre ++ [c]) cs
      (q.1, 1 + q.2)

/-- `Grammar::is_statement`, `src/grammar.cpp:238-249`. -/
def isStatementC (s : Str) : Counted Bool :=
  let t := trim s
  if t.length == 0 || t.getD (t.length - 1) 0 != c!";" then (false, call s)
  else
    let q := statementLoopC [] (rtrim (t.take (t.length - 1)))
    (q.1, call s + call t + q.2)

/-- `src/parser.cpp:37-38`. -/
def actorLoopC (pre : Str) : Str → Counted (Res (Str × Str))
  | [] => (.ub, 0)
  | c :: cs =>
    if isSpace c then
      if isActor pre then (.ok (pre, cs), 1 + call pre)
      else
        let q := actorLoopC (pre ++ [c]) cs
        (q.1, 1 + call pre + q.2)
    else
      let q := actorLoopC (pre ++ [c]) cs
      (q.1, 1 + q.2)

/-- `src/parser.cpp:46-48`. -/
def tokenLoopC (pre : Str) : Str → Counted (Res (Str × Str))
  | [] => (.ub, 0)
  | c :: cs =>
    if c != c!":" && c != c!"?" then
      let q := tokenLoopC (pre ++ [c]) cs
      (q.1, 1 + q.2)
    else (.ok (pre ++ [c], cs), 1)

/-- `src/parser.cpp:52-54`. -/
def argLoopC (pre : Str) : Str → Counted (Str × Str)
  | [] => ((pre, []), 0)
  | c :: cs =>
    if isSpace c then
      if isKeywordMessageArgument pre then ((pre, c :: cs), 1 + call pre)
      else
        let q := argLoopC (pre ++ [c]) cs
        (q.1, 1 + call pre + q.2)
    else
      let q := argLoopC (pre ++ [c]) cs
      (q.1, 1 + q.2)

/-- `src/parser.cpp:45-59`. -/
def partsLoopC : Nat → Str → Str → List Str → Counted (Res (Str × List Str))
  | _, [], name, args => (.ok (name, args), 0)
  | 0, _ :: _, _, _ => (.ub, 0)
  | fuel + 1, c :: cs, name, args =>
    let p := tokenLoopC [] (c :: cs)
    match p.1 with
    | .ok (tok, rest) =>
      let q := argLoopC [] (ltrim rest)
      let r := partsLoopC fuel (ltrim q.1.2) (name ++ tok) (args ++ [q.1.1])
      (r.1, 1 + p.2 + call (name ++ tok) + call rest + q.2 + call q.1.1 + call q.1.2 + r.2)
    | .err e => (.err e, 1 + p.2)
    | .ub => (.ub, 1 + p.2)

/-- `Parser::Parser`, `src/parser.cpp:31-61`. -/
def parseC (input : Str) : Counted (Res Parsed) :=
  let b := isStatementC input
  if !b.1 then (.err .invalidStatement, b.2)
  else
    let t := trim input
    let u := rtrim (t.take (t.length - 1))
    let p := actorLoopC [] u
    match p.1 with
    | .ok (actor, rest) =>
      let message := ltrim rest
      if isUnaryMessage message then
        (.ok ⟨actor, message, []⟩, b.2 + call input + call t + p.2 + call rest + call message)
      else
        let q := partsLoopC message.length message [] []
        match q.1 with
        | .ok (name, args) => (.ok ⟨actor, name, args⟩, b.2 + call input + call t + p.2 + call rest + call message + q.2)
        | .err e => (.err e, b.2 + call input + call t + p.2 + call rest + call message + q.2)
        | .ub => (.ub, b.2 + call input + call t + p.2 + call rest + call message + q.2)
    | .err e => (.err e, b.2 + call input + call t + p.2)
    | .ub => (.ub, b.2 + call input + call t + p.2)

end Knuckle
