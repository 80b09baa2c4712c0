/-
`src/str_utils.cpp`, `src/grammar.cpp` and `src/parser.cpp` once more, with the indices of the C++.

Here an `int` is a 32-bit number whose overflow is undefined behaviour, `int(str.size())` wraps around (as gcc defines it), `str[i]` is
undefined behaviour unless `0 ≤ i ≤ str.size()` (at `str.size()` it is the terminator), and `substr` throws `std::out_of_range` if it starts
behind the end.  `Verif.Model.StrUtils`, `Grammar` and `Parser` have recursions over lists instead; `Verif.Proofs.Indexed` proves that both
models agree for texts shorter than 2^31 bytes.

Simplifications: the tests on single bytes are those of `Verif.Model.StrUtils`; `std::string` has no maximal size (and `size_t` 64 bits).
-/
import Verif.Model.Parser

namespace Knuckle.Idx

/-- The outcome of a piece of C++: a value; an exception of `src/exceptions.h`; `std::out_of_range`; undefined behaviour; more nested calls than
there is stack for; a loop that does not advance. -/
inductive Ix (α : Type) where
  | ok (a : α)
  | throws (e : Exc)
  | outOfRange
  | ub
  | stack
  | stuck

namespace Ix

/-- Sequencing. -/
@[simp] def bind {α β : Type} : Ix α → (α → Ix β) → Ix β
  | .ok a, f => f a
  | .throws e, _ => .throws e
  | .outOfRange, _ => .outOfRange
  | .ub, _ => .ub
  | .stack, _ => .stack
  | .stuck, _ => .stuck

instance : Monad Ix where
  pure := .ok
  bind := bind

/-- `&&`: the second operand is evaluated only if the first is true. -/
def and (a b : Ix Bool) : Ix Bool := a.bind fun x => if x then b else .ok false

/-- `||`: the second operand is evaluated only if the first is false. -/
def or (a b : Ix Bool) : Ix Bool := a.bind fun x => if x then .ok true else b

/-- `!`. -/
def not (a : Ix Bool) : Ix Bool := a.bind fun x => .ok (!x)

end Ix

/-- The result of `int` arithmetic. -/
def int (x : Int) : Ix Int := if -2147483648 ≤ x ∧ x ≤ 2147483647 then .ok x else .ub

/-- `int(n)` for a `size_t`: modulo 2^32. -/
def toInt (n : Nat) : Int := if n % 4294967296 < 2147483648 then (n % 4294967296 : Nat) else (n % 4294967296 : Nat) - 4294967296

/-- `int(str.size())`. -/
def size (s : Str) : Int := toInt s.length

/-- The conversion of an `int` to `size_t`. -/
def toSize (i : Int) : Nat := if 0 ≤ i then i.toNat else 18446744073709551616 - (-i).toNat

/-- `str[i]`. -/
def «at» (s : Str) (i : Int) : Ix Byte := if toSize i ≤ s.length then .ok (s.getD (toSize i) 0) else .ub

/-- `str.substr(pos)`. -/
def substr1 (s : Str) (pos : Int) : Ix Str := if toSize pos ≤ s.length then .ok (s.drop (toSize pos)) else .outOfRange

/-- `str.substr(pos, n)`. -/
def substr2 (s : Str) (pos n : Int) : Ix Str :=
  if toSize pos ≤ s.length then .ok ((s.drop (toSize pos)).take (toSize n)) else .outOfRange

/-- What the body of a loop does: the next iteration, with the new values of the variables, or the end of the loop. -/
inductive Flow (σ β : Type) where
  | next (s : σ)
  | stop (b : β)

/-- A loop with `i++` after each iteration. -/
def up {σ β : Type} (body : Int → σ → Ix (Flow σ β)) (i : Int) (st : σ) : Ix β :=
  match body i st with
  | .ok (.next st) => if i < 2147483647 then up body (i + 1) st else .ub
  | .ok (.stop b) => .ok b
  | .throws e => .throws e
  | .outOfRange => .outOfRange
  | .ub => .ub
  | .stack => .stack
  | .stuck => .stuck
termination_by (2147483648 - i).toNat

/-- A loop with `i--` after each iteration. -/
def down {σ β : Type} (body : Int → σ → Ix (Flow σ β)) (i : Int) (st : σ) : Ix β :=
  match body i st with
  | .ok (.next st) => if -2147483648 < i then down body (i - 1) st else .ub
  | .ok (.stop b) => .ok b
  | .throws e => .throws e
  | .outOfRange => .outOfRange
  | .ub => .ub
  | .stack => .stack
  | .stuck => .stuck
termination_by (2147483649 + i).toNat

/-! ### `src/str_utils.cpp` -/

/-- `str_utils::ltrim`, `src/str_utils.cpp:32-37`. -/
def ltrim (s : Str) : Ix Str := do
  let i ← up (fun i (_ : Unit) => do
    if ← Ix.and (.ok (decide (i < size s))) ((«at» s i).bind fun c => .ok (isSpace c)) then .ok (.next ()) else .ok (.stop i)) 0 ()
  substr1 s i

/-- `str_utils::rtrim`, `src/str_utils.cpp:39-44`. -/
def rtrim (s : Str) : Ix Str := do
  let i ← int (size s - 1)
  let i ← down (fun i (_ : Unit) => do
    if ← Ix.and (.ok (decide (0 ≤ i))) ((«at» s i).bind fun c => .ok (isSpace c)) then .ok (.next ()) else .ok (.stop i)) i ()
  let n ← int (i + 1)
  substr2 s 0 n

/-- `str_utils::trim`, `src/str_utils.cpp:46-48`. -/
def trim (s : Str) : Ix Str := do
  let t ← ltrim s
  rtrim t

/-- `str_utils::escape`, `src/str_utils.cpp:50-58`. -/
def escape (s : Str) (c : Byte) : Ix Str :=
  up (fun i (r : Str) => do
    if i < size s then
      let x ← «at» s i
      let r := if x == c then r ++ [c!"\\"] else r
      .ok (.next (r ++ [x]))
    else .ok (.stop r)) 0 []

/-- `str_utils::unescape`, `src/str_utils.cpp:60-68`. -/
def unescape (s : Str) (c : Byte) : Ix Str :=
  up (fun i (r : Str) => do
    if i < size s then
      let n ← int (size s - 1)
      if ← Ix.and (.ok (decide (i < n))) (Ix.and ((«at» s i).bind fun x => .ok (x == c!"\\"))
          ((int (i + 1)).bind fun j => («at» s j).bind fun y => .ok (y == c))) then .ok (.next r)
      else
        let x ← «at» s i
        .ok (.next (r ++ [x]))
    else .ok (.stop r)) 0 []

/-- `str_utils::starts_with`, `src/str_utils.cpp:86-93`. -/
def startsWith (s pre : Str) : Ix Bool :=
  if s.length < pre.length then .ok false
  else up (fun i (_ : Unit) => do
    if i < size pre then
      let a ← «at» s i
      let b ← «at» pre i
      if a != b then .ok (.stop false) else .ok (.next ())
    else .ok (.stop true)) 0 ()

/-- `str_utils::ends_with`, `src/str_utils.cpp:95-102`. -/
def endsWith (s suf : Str) : Ix Bool :=
  if s.length < suf.length then .ok false
  else up (fun i (_ : Unit) => do
    if i < size suf then
      let j ← int (size s - i)
      let j ← int (j - 1)
      let a ← «at» s j
      let k ← int (size suf - i)
      let k ← int (k - 1)
      let b ← «at» suf k
      if a != b then .ok (.stop false) else .ok (.next ())
    else .ok (.stop true)) 0 ()

/-- `str_utils::remove_spaces`, `src/str_utils.cpp:104-112`. -/
def removeSpaces (s : Str) : Ix Str :=
  up (fun i (r : Str) => do
    if i < size s then
      let x ← «at» s i
      if isSpace x then .ok (.next r) else .ok (.next (r ++ [x]))
    else .ok (.stop r)) 0 []

/-! ### `src/grammar.cpp` -/

/-- `Grammar::is_character_value`, `src/grammar.cpp:61-65`. -/
def isCharacterValue (s : Str) : Ix Bool :=
  if s.length != 3 then .ok false
  else Ix.and ((«at» s 0).bind fun c => .ok (c == c!"'")) ((«at» s 2).bind fun c => .ok (c == c!"'"))

/-- `Grammar::is_integer_value`, `src/grammar.cpp:71-80`. -/
def isIntegerValue (s : Str) : Ix Bool :=
  if s.length == 0 then .ok false
  else do
    let c ← «at» s 0
    if !isNumeric c && c != c!"+" && c != c!"-" then .ok false
    else
      let r ← up (fun i (_ : Unit) => do
        if i < size s then
          let d ← «at» s i
          if !isNumeric d then .ok (.stop (some false)) else .ok (.next ())
        else .ok (.stop none)) 1 ()
      match r with
      | some b => .ok b
      | none => do
        let c ← «at» s 0
        .ok (isNumeric c || decide (s.length > 1))

/-- `Grammar::is_float_value`, `src/grammar.cpp:86-102`. -/
def isFloatValue (s : Str) : Ix Bool :=
  if s.length == 0 then .ok false
  else do
    let c ← «at» s 0
    up (fun i (cp, cn) => do
      if i < size s then
        let d ← «at» s i
        if !isNumeric d && d != c!"." then
          if d != c!"e" then .ok (.stop false)
          else
            let b ← Ix.and (.ok (decide (cp ≤ 1) && decide (cn > 0))) ((int (i + 1)).bind fun j => (substr1 s j).bind isIntegerValue)
            .ok (.stop b)
        else
          let cp ← if d == c!"." then int (cp + 1) else .ok cp
          let cn ← if isNumeric d then int (cn + 1) else .ok cn
          .ok (.next (cp, cn))
      else .ok (.stop (decide (cp ≤ 1) && decide (cn > 0)))) (if c == c!"+" || c == c!"-" then 1 else 0) ((0 : Int), (0 : Int))

/-- The inner loop of `Grammar::is_string_value`, `src/grammar.cpp:115-120`: `some false` for the `return`. -/
def quoteLoop (s : Str) (i : Int) : Ix (Option Bool) := do
  let j ← int (i - 1)
  down (fun j (_ : Unit) => do
    if 0 ≤ j then
      let c ← «at» s j
      if c != c!"\\" then
        let d ← int (i - j)
        if d.tmod 2 == 1 then .ok (.stop (some false)) else .ok (.stop none)
      else .ok (.next ())
    else .ok (.stop none)) j ()

/-- `Grammar::is_string_value`, `src/grammar.cpp:108-125`. -/
def isStringValue (s : Str) : Ix Bool :=
  if s.length < 2 then .ok false
  else do
    let n ← int (size s - 1)
    if ← Ix.or ((«at» s 0).bind fun c => .ok (c != c!"\"")) ((«at» s n).bind fun c => .ok (c != c!"\"")) then .ok false
    else
      let r ← up (fun i (_ : Unit) => do
        let n ← int (size s - 1)
        if i < n then
          let c ← «at» s i
          if c == c!"\"" then
            match ← quoteLoop s i with
            | some b => .ok (.stop (some b))
            | none => .ok (.next ())
          else .ok (.next ())
        else .ok (.stop none)) 1 ()
      match r with
      | some b => .ok b
      | none => do
        let i ← int (size s - 2)
        let r ← down (fun i (_ : Unit) => do
          if 0 < i then
            let c ← «at» s i
            if c != c!"\\" then
              let a ← int (size s - 1)
              let d ← int (a - i)
              .ok (.stop (some (d.tmod 2 == 1)))
            else .ok (.next ())
          else .ok (.stop none)) i ()
        match r with
        | some b => .ok b
        | none => .ok (s.length % 2 == 0)

/-- `Grammar::is_object_value`, `src/grammar.cpp:132-135`. -/
def isObjectValue (s : Str) : Ix Bool :=
  Ix.or (Ix.or (Ix.or (Ix.or (.ok (isBooleanValue s)) (isCharacterValue s)) (isIntegerValue s)) (isFloatValue s)) (isStringValue s)

/-- `Grammar::is_vector_type`, `src/grammar.cpp:137-141`. -/
def isVectorType (s : Str) : Ix Bool := do
  if ← Ix.or (Ix.not (startsWith s b!"Vector<")) (Ix.not (endsWith s b!">")) then .ok false
  else
    let n ← int (size s - 8)
    let t ← substr2 s 7 n
    let t ← trim t
    .ok (isObjectType t)

/-- `Grammar::is_set_type`, `src/grammar.cpp:143-147`. -/
def isSetType (s : Str) : Ix Bool := do
  if ← Ix.or (Ix.not (startsWith s b!"Set<")) (Ix.not (endsWith s b!">")) then .ok false
  else
    let n ← int (size s - 5)
    let t ← substr2 s 4 n
    let t ← trim t
    .ok (isObjectType t)

/-- `Grammar::is_dictionary_type`, `src/grammar.cpp:149-158`. -/
def isDictionaryType (s : Str) : Ix Bool := do
  if ← Ix.or (Ix.not (startsWith s b!"Dictionary<")) (Ix.not (endsWith s b!">")) then .ok false
  else
    let n ← int (size s - 12)
    let t ← substr2 s 11 n
    up (fun i (_ : Unit) => do
      if i < size t then
        let c ← «at» t i
        if c == c!"," then
          let b ← Ix.and ((substr2 t 0 i).bind fun x => (trim x).bind fun x => .ok (isObjectType x))
            ((int (i + 1)).bind fun j => (substr1 t j).bind fun x => (trim x).bind fun x => .ok (isObjectType x))
          .ok (.stop b)
        else .ok (.next ())
      else .ok (.stop false)) 0 ()

/-- `Grammar::is_container_type`, `src/grammar.cpp:160-162`. -/
def isContainerType (s : Str) : Ix Bool := Ix.or (Ix.or (isVectorType s) (isSetType s)) (isDictionaryType s)

/-- `Grammar::is_type`, `src/grammar.cpp:164-166`. -/
def isType (s : Str) : Ix Bool := Ix.or (.ok (isObjectType s)) (isContainerType s)

/-- `Grammar::is_identifier`, `src/grammar.cpp:180-187`. -/
def isIdentifier (s : Str) : Ix Bool := do
  if ← Ix.or (.ok (s.length == 0)) ((«at» s 0).bind fun c => .ok (!isAlpha c)) then .ok false
  else
    let r ← up (fun i (_ : Unit) => do
      if i < size s then
        let d ← «at» s i
        if !isAlphanumeric d && d != c!"_" then .ok (.stop (some false)) else .ok (.next ())
      else .ok (.stop none)) 1 ()
    match r with
    | some b => .ok b
    | none => .ok (!isReservedWord s)

/-- `Grammar::is_namespace`, `src/grammar.cpp:189-191`. -/
def isNamespace (s : Str) : Ix Bool := isIdentifier s

/-- `Grammar::is_variable`, `src/grammar.cpp:193-200`. -/
def isVariable (s : Str) : Ix Bool :=
  if s.length == 0 then .ok false
  else do
    let r ← up (fun i (_ : Unit) => do
      let n ← int (size s - 1)
      if i < n then
        if ← Ix.and ((«at» s i).bind fun c => .ok (c == c!":")) ((int (i + 1)).bind fun j => («at» s j).bind fun c => .ok (c == c!":")) then
          let b ← Ix.and ((substr2 s 0 i).bind isNamespace) ((int (i + 2)).bind fun j => (substr1 s j).bind isIdentifier)
          .ok (.stop (some b))
        else .ok (.next ())
      else .ok (.stop none)) 0 ()
    match r with
    | some b => .ok b
    | none => isIdentifier s

/-- `Grammar::is_actor`, `src/grammar.cpp:202-204`. -/
def isActor (s : Str) : Ix Bool := Ix.or (Ix.or (Ix.or (.ok (isConnection s)) (.ok (isContext s))) (isType s)) (isVariable s)

/-- The last byte, `str[int(str.size()) - 1]`. -/
def last (s : Str) : Ix Byte := do
  let i ← int (size s - 1)
  «at» s i

/-- `str.substr(0, int(str.size()) - 1)`. -/
def init (s : Str) : Ix Str := do
  let i ← int (size s - 1)
  substr2 s 0 i

/-- `Grammar::is_unary_message`, `src/grammar.cpp:206-209`. -/
def isUnaryMessage (s : Str) : Ix Bool :=
  Ix.and (.ok (decide (s.length > 0)))
    (Ix.or (isIdentifier s) (Ix.and ((last s).bind fun c => .ok (c == c!"?")) ((init s).bind isIdentifier)))

/-- `Grammar::is_keyword_message_token`, `src/grammar.cpp:211-214`. -/
def isKeywordMessageToken (s : Str) : Ix Bool :=
  Ix.and (Ix.and (.ok (decide (s.length > 0)))
    (Ix.or ((last s).bind fun c => .ok (c == c!":")) ((last s).bind fun c => .ok (c == c!"?")))) ((init s).bind isIdentifier)

/-- `Grammar::is_keyword_message_argument`, `src/grammar.cpp:216-218`. -/
def isKeywordMessageArgument (s : Str) : Ix Bool := Ix.or (Ix.or (isObjectValue s) (isNamespace s)) (isVariable s)

/-- `Grammar::is_keyword_message_part`, `src/grammar.cpp:220-226`. -/
def isKeywordMessagePart (s : Str) : Ix Bool :=
  up (fun i (_ : Unit) => do
    if i < size s then
      let c ← «at» s i
      if c == c!":" || c == c!"?" then
        let b ← Ix.and ((int (i + 1)).bind fun j => (substr2 s 0 j).bind isKeywordMessageToken)
          ((int (i + 1)).bind fun j => (substr1 s j).bind fun t => (ltrim t).bind isKeywordMessageArgument)
        .ok (.stop b)
      else .ok (.next ())
    else .ok (.stop false)) 0 ()

/-- `Grammar::is_keyword_message`, `src/grammar.cpp:228-236`; the number is how many nested calls the stack has room for. -/
def isKeywordMessage : Nat → Str → Ix Bool
  | 0, _ => .stack
  | depth + 1, s => do
    if ← isKeywordMessagePart s then .ok true
    else up (fun i (_ : Unit) => do
      if i < size s then
        let c ← «at» s i
        if ← Ix.and (Ix.and (.ok (isSpace c)) ((substr2 s 0 i).bind isKeywordMessagePart))
            ((int (i + 1)).bind fun j => (substr1 s j).bind fun t => (ltrim t).bind (isKeywordMessage depth)) then .ok (.stop true)
        else .ok (.next ())
      else .ok (.stop false)) 0 ()

/-- `Grammar::is_statement`, `src/grammar.cpp:238-249`. -/
def isStatement (depth : Nat) (s : Str) : Ix Bool := do
  let t ← trim s
  if ← Ix.or (.ok (t.length == 0)) ((last t).bind fun c => .ok (c != c!";")) then .ok false
  else
    let t ← init t
    let t ← rtrim t
    up (fun i (_ : Unit) => do
      if i < size t then
        let c ← «at» t i
        if ← Ix.and (.ok (isSpace c)) ((substr2 t 0 i).bind isActor) then
          let j ← int (i + 1)
          let m ← substr1 t j
          let m ← ltrim m
          let b ← Ix.or (isUnaryMessage m) (isKeywordMessage depth m)
          .ok (.stop b)
        else .ok (.next ())
      else .ok (.stop false)) 0 ()

/-! ### `src/parser.cpp` -/

/-- The body of the loop `src/parser.cpp:45-59`, with `j = k` at its start: the new `k`, the token and the argument. -/
def iteration (m : Str) (j : Int) : Ix (Int × Str × Str) := do
  let k ← up (fun k (_ : Unit) => do
    if ← Ix.and ((«at» m k).bind fun c => .ok (c != c!":")) ((«at» m k).bind fun c => .ok (c != c!"?")) then .ok (.next ())
    else .ok (.stop k)) j ()
  let k ← int (k + 1)
  let n ← int (k - j)
  let tok ← substr2 m j n
  let k ← up (fun k (_ : Unit) => do
    let c ← «at» m k
    if isSpace c then .ok (.next ()) else .ok (.stop k)) k ()
  let j := k
  let k ← up (fun k (_ : Unit) => do
    if ← Ix.and (.ok (decide (k < size m))) (Ix.or ((«at» m k).bind fun c => .ok (!isSpace c))
        (Ix.not ((int (k - j)).bind fun n => (substr2 m j n).bind isKeywordMessageArgument))) then .ok (.next ())
    else .ok (.stop k)) k ()
  let n ← int (k - j)
  let arg ← substr2 m j n
  let k ← up (fun k (_ : Unit) => do
    if ← Ix.and (.ok (decide (k < size m))) ((«at» m k).bind fun c => .ok (isSpace c)) then .ok (.next ()) else .ok (.stop k)) k ()
  .ok (k, tok, arg)

/-- The loop `src/parser.cpp:45-59`.  (If an iteration did not advance `j`, the loop would not end: `stuck`.) -/
def parts (m : Str) (j : Int) (name : Str) (args : List Str) : Ix (Str × List Str) :=
  if j < size m then
    match iteration m j with
    | .ok (k, tok, arg) => if j < k then parts m k (name ++ tok) (args ++ [arg]) else .stuck
    | .throws e => .throws e
    | .outOfRange => .outOfRange
    | .ub => .ub
    | .stack => .stack
    | .stuck => .stuck
  else .ok (name, args)
termination_by (size m - j).toNat

/-- `Parser::Parser`, `src/parser.cpp:31-61`. -/
def parse (depth : Nat) (input : Str) : Ix Parsed := do
  if ← Ix.not (isStatement depth input) then .throws .invalidStatement
  else
    let t ← trim input
    let t ← init t
    let t ← rtrim t
    let i ← up (fun i (_ : Unit) => do
      if ← Ix.or ((«at» t i).bind fun c => .ok (!isSpace c)) (Ix.not ((substr2 t 0 i).bind isActor)) then .ok (.next ()) else .ok (.stop i)) 0 ()
    let actor ← substr2 t 0 i
    let j ← int (i + 1)
    let m ← substr1 t j
    let m ← ltrim m
    if ← isUnaryMessage m then .ok ⟨actor, m, []⟩
    else
      let (name, args) ← parts m 0 [] []
      .ok ⟨actor, name, args⟩

end Knuckle.Idx
