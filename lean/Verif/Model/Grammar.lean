/-
Model of `src/grammar.cpp`, function by function.

Simplifications common to the file: an index loop over a string is a recursion over the not yet visited suffix (with the
visited prefix as an accumulator where the C++ takes `substr(0, i)`); `substr` is only called with a start position that
is within the string (each `i` is below `size()`), so it never throws here; string lengths are below 2^31, so the casts
`int(str.size())` are exact.
-/
import Verif.Model.StrUtils

namespace Knuckle

/-- `Grammar::RESERVED_WORDS`, `src/grammar.cpp:29-43`. -/
def reservedWords : List Str :=
  [b!"null", b!"true", b!"false", b!"Connection", b!"Context", b!"Boolean", b!"Character", b!"Integer", b!"Float",
   b!"String", b!"Vector", b!"Set", b!"Dictionary"]

/-- `Grammar::is_boolean_value`, `src/grammar.cpp:53-55`. -/
def isBooleanValue (s : Str) : Bool := s == b!"true" || s == b!"false"

/-- `Grammar::is_character_value`, `src/grammar.cpp:61-65`. -/
def isCharacterValue (s : Str) : Bool :=
  if s.length != 3 then false else s.getD 0 0 == c!"'" && s.getD 2 0 == c!"'"

/-- `Grammar::is_integer_value`, `src/grammar.cpp:71-80`. -/
def isIntegerValue : Str → Bool
  | [] => false
  | c :: cs =>
    if !isNumeric c && c != c!"+" && c != c!"-" then false
    else if cs.any (fun d => !isNumeric d) then false
    else isNumeric c || decide (cs.length + 1 > 1)

/-- The loop of `Grammar::is_float_value`, `src/grammar.cpp:90-101`, on the not yet visited suffix, with the two counters. -/
def floatLoop : Str → Nat → Nat → Bool
  | [], cp, cn => decide (cp ≤ 1) && decide (cn > 0)
  | c :: cs, cp, cn =>
    if !isNumeric c && c != c!"." then
      if c != c!"e" then false
      else decide (cp ≤ 1) && decide (cn > 0) && isIntegerValue cs
    else
      floatLoop cs (if c == c!"." then cp + 1 else cp) (if isNumeric c then cn + 1 else cn)

/-- `Grammar::is_float_value`, `src/grammar.cpp:86-102`. -/
def isFloatValue : Str → Bool
  | [] => false
  | c :: cs => if c == c!"+" || c == c!"-" then floatLoop cs 0 0 else floatLoop (c :: cs) 0 0

/-- The inner loops of `Grammar::is_string_value` (`src/grammar.cpp:115-120` and `121-123`), walking left: the argument is
the part of the string to the left of the current position, reversed; `d` is the distance to the position the walk
started from.  The result is the distance at which the first byte other than a backslash is found, if any. -/
def scanBack : Str → Nat → Option Nat
  | [], _ => none
  | c :: cs, d => if c != c!"\\" then some d else scanBack cs (d + 1)

/-- `src/grammar.cpp:116-119`: a quote is refused if the walk to the left ended at an odd distance. -/
def quoteOk : Option Nat → Bool
  | some d => d % 2 != 1
  | none => true

/-- `src/grammar.cpp:121-124`: the end of the string; `len` is the size of the whole string. -/
def endOk (len : Nat) : Option Nat → Bool
  | some d => d % 2 == 1
  | none => len % 2 == 0

/-- `Grammar::is_string_value`, `src/grammar.cpp:108-125`. -/
def isStringValue (s : Str) : Bool :=
  if s.length < 2 then false
  else if s.getD 0 0 != c!"\"" || s.getD (s.length - 1) 0 != c!"\"" then false
  else if !((List.range' 1 (s.length - 2)).all fun i =>
      if s.getD i 0 == c!"\"" then quoteOk (scanBack (s.take i).reverse 1) else true) then false
  else endOk s.length (scanBack ((s.take (s.length - 1)).drop 1).reverse 1)

/-- `Grammar::is_object_type` and the five type predicates, `src/grammar.cpp:49-130`. -/
def isObjectType (s : Str) : Bool :=
  s == b!"Boolean" || s == b!"Character" || s == b!"Integer" || s == b!"Float" || s == b!"String"

/-- `Grammar::is_object_value`, `src/grammar.cpp:132-135`. -/
def isObjectValue (s : Str) : Bool :=
  isBooleanValue s || isCharacterValue s || isIntegerValue s || isFloatValue s || isStringValue s

/-- `Grammar::is_vector_type`, `src/grammar.cpp:137-141`.  (The guards make the size at least 8.) -/
def isVectorType (s : Str) : Bool :=
  if !startsWith s b!"Vector<" || !endsWith s b!">" then false
  else isObjectType (trim (substr s 7 (s.length - 8)))

/-- `Grammar::is_set_type`, `src/grammar.cpp:143-147`.  (The guards make the size at least 5.) -/
def isSetType (s : Str) : Bool :=
  if !startsWith s b!"Set<" || !endsWith s b!">" then false
  else isObjectType (trim (substr s 4 (s.length - 5)))

/-- The loop of `Grammar::is_dictionary_type`, `src/grammar.cpp:153-157`: at the first comma both sides are tested. -/
def dictLoop (pre : Str) : Str → Bool
  | [] => false
  | c :: cs => if c == c!"," then isObjectType (trim pre) && isObjectType (trim cs) else dictLoop (pre ++ [c]) cs

/-- `Grammar::is_dictionary_type`, `src/grammar.cpp:149-158`.  (The guards make the size at least 12.) -/
def isDictionaryType (s : Str) : Bool :=
  if !startsWith s b!"Dictionary<" || !endsWith s b!">" then false
  else dictLoop [] (substr s 11 (s.length - 12))

/-- `Grammar::is_container_type`, `src/grammar.cpp:160-162`. -/
def isContainerType (s : Str) : Bool := isVectorType s || isSetType s || isDictionaryType s

/-- `Grammar::is_type`, `src/grammar.cpp:164-166`. -/
def isType (s : Str) : Bool := isObjectType s || isContainerType s

/-- `Grammar::is_connection`, `src/grammar.cpp:168-170`. -/
def isConnection (s : Str) : Bool := s == b!"Connection"

/-- `Grammar::is_context`, `src/grammar.cpp:172-174`. -/
def isContext (s : Str) : Bool := s == b!"Context"

/-- `Grammar::is_reserved_word`, `src/grammar.cpp:176-178`. -/
def isReservedWord (s : Str) : Bool := reservedWords.contains s

/-- `Grammar::is_identifier`, `src/grammar.cpp:180-187`. -/
def isIdentifier : Str → Bool
  | [] => false
  | c :: cs =>
    if !isAlpha c then false
    else if cs.any (fun d => !isAlphanumeric d && d != c!"_") then false
    else !isReservedWord (c :: cs)

/-- `Grammar::is_namespace`, `src/grammar.cpp:189-191`. -/
def isNamespace (s : Str) : Bool := isIdentifier s

/-- The loop of `Grammar::is_variable`, `src/grammar.cpp:196-199`: `pre` is `str.substr(0, i)`. -/
def variableLoop (pre : Str) : Str → Bool
  | c :: d :: cs =>
    if c == c!":" && d == c!":" then isNamespace pre && isIdentifier cs else variableLoop (pre ++ [c]) (d :: cs)
  | rest => isIdentifier (pre ++ rest)

/-- `Grammar::is_variable`, `src/grammar.cpp:193-200`. -/
def isVariable (s : Str) : Bool := if s.length == 0 then false else variableLoop [] s

/-- `Grammar::is_actor`, `src/grammar.cpp:202-204`. -/
def isActor (s : Str) : Bool := isConnection s || isContext s || isType s || isVariable s

/-- `Grammar::is_unary_message`, `src/grammar.cpp:206-209`. -/
def isUnaryMessage (s : Str) : Bool :=
  decide (s.length > 0) &&
    (isIdentifier s || (s.getD (s.length - 1) 0 == c!"?" && isIdentifier (s.take (s.length - 1))))

/-- `Grammar::is_keyword_message_token`, `src/grammar.cpp:211-214`. -/
def isKeywordMessageToken (s : Str) : Bool :=
  decide (s.length > 0) && (s.getD (s.length - 1) 0 == c!":" || s.getD (s.length - 1) 0 == c!"?") &&
    isIdentifier (s.take (s.length - 1))

/-- `Grammar::is_keyword_message_argument`, `src/grammar.cpp:216-218`. -/
def isKeywordMessageArgument (s : Str) : Bool := isObjectValue s || isNamespace s || isVariable s

/-- The loop of `Grammar::is_keyword_message_part`, `src/grammar.cpp:221-225`. -/
def partLoop (pre : Str) : Str → Bool
  | [] => false
  | c :: cs =>
    if c == c!":" || c == c!"?" then isKeywordMessageToken (pre ++ [c]) && isKeywordMessageArgument (ltrim cs)
    else partLoop (pre ++ [c]) cs

/-- `Grammar::is_keyword_message_part`, `src/grammar.cpp:220-226`. -/
def isKeywordMessagePart (s : Str) : Bool := partLoop [] s

/-- `Grammar::is_keyword_message`, `src/grammar.cpp:228-236`.  The C++ recursion is on a strictly shorter string; `fuel`
bounds its depth and `isKeywordMessage` supplies more than the length of the string, so it never runs out
(`Verif.Proofs.Grammar`, `isKeywordMessageF_fuel`). -/
def isKeywordMessageF : Nat → Str → Bool
  | 0, _ => false
  | fuel + 1, s =>
    if isKeywordMessagePart s then true
    else (List.range s.length).any fun i =>
      isSpace (s.getD i 0) && isKeywordMessagePart (s.take i) && isKeywordMessageF fuel (ltrim (s.drop (i + 1)))

/-- `Grammar::is_keyword_message`, `src/grammar.cpp:228-236`. -/
def isKeywordMessage (s : Str) : Bool := isKeywordMessageF (s.length + 1) s

/-- The loop of `Grammar::is_statement`, `src/grammar.cpp:243-248`. -/
def statementLoop (pre : Str) : Str → Bool
  | [] => false
  | c :: cs =>
    if isSpace c && isActor pre then
      isUnaryMessage (ltrim cs) || isKeywordMessage (ltrim cs)
    else statementLoop (pre ++ [c]) cs

/-- `Grammar::is_statement`, `src/grammar.cpp:238-249`. -/
def isStatement (s : Str) : Bool :=
  let t := trim s
  if t.length == 0 || t.getD (t.length - 1) 0 != c!";" then false
  else statementLoop [] (rtrim (t.take (t.length - 1)))

end Knuckle
