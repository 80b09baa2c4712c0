/-
The grammar documented at `src/grammar.h:29-63`, written down as predicates on byte strings, independently of the
recognizers of `src/grammar.cpp`.  (The documented rule for string values is `".*"`; that a quote inside must be escaped
by a backslash is implied by `README.md` and made precise in `StringBody`.)
-/
import Verif.Model.Bytes

namespace Knuckle.Spec

/-- `\s`: tab, newline, vertical tab, form feed, carriage return, space. -/
def Ws (c : Byte) : Prop := c = 32 ∨ (9 ≤ c ∧ c ≤ 13)

/-- `<spaces>` -/
def Spaces (s : Str) : Prop := ∀ c ∈ s, Ws c

/-- `[0-9]` -/
def Digit (c : Byte) : Prop := c!"0" ≤ c ∧ c ≤ c!"9"

/-- `[a-zA-Z]` -/
def Letter (c : Byte) : Prop := (c!"a" ≤ c ∧ c ≤ c!"z") ∨ (c!"A" ≤ c ∧ c ≤ c!"Z")

/-- `[0-9]*` -/
def Digits (s : Str) : Prop := ∀ c ∈ s, Digit c

/-- `[\+\-]?` -/
def Sign (s : Str) : Prop := s = [] ∨ s = b!"+" ∨ s = b!"-"

/-- `<boolean-value>` -/
def BooleanValue (s : Str) : Prop := s = b!"true" ∨ s = b!"false"

/-- `<character-value> --> '.'` (any byte in between) -/
def CharacterValue (s : Str) : Prop := ∃ c, s = [c!"'", c, c!"'"]

/-- `<integer-value> --> [\+\-]?[0-9]+` -/
def IntegerValue (s : Str) : Prop := ∃ sg ds, s = sg ++ ds ∧ Sign sg ∧ ds ≠ [] ∧ Digits ds

/-- `[0-9]+ | [0-9]*\.[0-9]+ | [0-9]+\.[0-9]*` -/
def Mantissa (s : Str) : Prop :=
  (s ≠ [] ∧ Digits s) ∨
  (∃ a b, s = a ++ c!"." :: b ∧ Digits a ∧ Digits b ∧ (a ≠ [] ∨ b ≠ []))

/-- `<float-value> --> [\+\-]?([0-9]+ | [0-9]*\.[0-9]+ | [0-9]+\.[0-9]*)(e<integer-value>)?` -/
def FloatValue (s : Str) : Prop :=
  ∃ sg m e, s = sg ++ (m ++ e) ∧ Sign sg ∧ Mantissa m ∧ (e = [] ∨ ∃ x, e = c!"e" :: x ∧ IntegerValue x)

/-- The inside of a string value: bytes other than quote and backslash, and pairs of a backslash and any byte. -/
inductive StringBody : Str → Prop
  | nil : StringBody []
  | plain {c : Byte} {s : Str} : c ≠ c!"\"" → c ≠ c!"\\" → StringBody s → StringBody (c :: s)
  | escaped {c : Byte} {s : Str} : StringBody s → StringBody (c!"\\" :: c :: s)

/-- `<string-value> --> ".*"` -/
def StringValue (s : Str) : Prop := ∃ b, s = c!"\"" :: (b ++ [c!"\""]) ∧ StringBody b

/-- `<object-type>` -/
def ObjectType (s : Str) : Prop := s ∈ [b!"Boolean", b!"Character", b!"Integer", b!"Float", b!"String"]

/-- `<object-value>` -/
def ObjectValue (s : Str) : Prop :=
  BooleanValue s ∨ CharacterValue s ∨ IntegerValue s ∨ FloatValue s ∨ StringValue s

/-- `<vector-type> --> Vector\<<spaces><object-type><spaces>\>` -/
def VectorType (s : Str) : Prop :=
  ∃ w t w', s = b!"Vector<" ++ (w ++ (t ++ (w' ++ b!">"))) ∧ Spaces w ∧ ObjectType t ∧ Spaces w'

/-- `<set-type> --> Set\<<spaces><object-type><spaces>\>` -/
def SetType (s : Str) : Prop :=
  ∃ w t w', s = b!"Set<" ++ (w ++ (t ++ (w' ++ b!">"))) ∧ Spaces w ∧ ObjectType t ∧ Spaces w'

/-- `<dictionary-type> --> Dictionary\<<spaces><object-type><spaces>,<spaces><object-type><spaces>\>` -/
def DictionaryType (s : Str) : Prop :=
  ∃ w k w' v t v', s = b!"Dictionary<" ++ (w ++ (k ++ (w' ++ (b!"," ++ (v ++ (t ++ (v' ++ b!">"))))))) ∧
    Spaces w ∧ ObjectType k ∧ Spaces w' ∧ Spaces v ∧ ObjectType t ∧ Spaces v'

/-- `<container-type>` -/
def ContainerType (s : Str) : Prop := VectorType s ∨ SetType s ∨ DictionaryType s

/-- `<type>` -/
def IsType (s : Str) : Prop := ObjectType s ∨ ContainerType s

/-- `<reserved-word>` -/
def ReservedWord (s : Str) : Prop :=
  s ∈ [b!"null", b!"true", b!"false", b!"Connection", b!"Context", b!"Boolean", b!"Character", b!"Integer", b!"Float",
    b!"String", b!"Vector", b!"Set", b!"Dictionary"]

/-- `<identifier> --> [a-zA-Z][a-zA-Z0-9_]* - <reserved_word>` -/
def Identifier (s : Str) : Prop :=
  (∃ c r, s = c :: r ∧ Letter c ∧ ∀ d ∈ r, Letter d ∨ Digit d ∨ d = c!"_") ∧ ¬ ReservedWord s

/-- `<variable> --> (<namespace>::)?<identifier>`, `<namespace> --> <identifier>` -/
def Variable (s : Str) : Prop := Identifier s ∨ ∃ n i, s = n ++ (b!"::" ++ i) ∧ Identifier n ∧ Identifier i

/-- `<actor> --> <connection> | <context> | <type> | <variable>` -/
def Actor (s : Str) : Prop := s = b!"Connection" ∨ s = b!"Context" ∨ IsType s ∨ Variable s

/-- `<unary-message> --> <identifier>\??` -/
def UnaryMessage (s : Str) : Prop := Identifier s ∨ ∃ i, s = i ++ b!"?" ∧ Identifier i

/-- `<keyword-message-token> --> <identifier>[:\?]{1}` -/
def Token (s : Str) : Prop := ∃ i, Identifier i ∧ (s = i ++ b!":" ∨ s = i ++ b!"?")

/-- `<keyword-message-argument> --> <object-value> | <namespace> | <variable>` -/
def Argument (s : Str) : Prop := ObjectValue s ∨ Identifier s ∨ Variable s

/-- `<keyword-message> --> <keyword-message-part>(\s<spaces><keyword-message>)?`, `<keyword-message-part> -->
<keyword-message-token><spaces><keyword-message-argument>`: `KeywordMessage text name args` says that `text` is a keyword
message whose tokens put together are `name` and whose arguments are `args`. -/
inductive KeywordMessage : Str → Str → List Str → Prop
  | one {tok w arg : Str} : Token tok → Spaces w → Argument arg → KeywordMessage (tok ++ (w ++ arg)) tok [arg]
  | more {tok w arg : Str} {c : Byte} {w' text name : Str} {args : List Str} :
      Token tok → Spaces w → Argument arg → Ws c → Spaces w' → KeywordMessage text name args →
      KeywordMessage (tok ++ (w ++ (arg ++ (c :: (w' ++ text))))) (tok ++ name) (arg :: args)

/-- `<unary-message> | <keyword-message>` with its name and arguments. -/
def Message (text name : Str) (args : List Str) : Prop :=
  (UnaryMessage text ∧ name = text ∧ args = []) ∨ KeywordMessage text name args

/-- `<statement> --> <spaces><actor>\s<spaces>(<unary-message> | <keyword-message>)<spaces>;<spaces>`, with the actor, the
name of the message and its arguments. -/
def Statement (text actor name : Str) (args : List Str) : Prop :=
  ∃ w₁ c w₂ msg w₃ w₄, text = w₁ ++ (actor ++ (c :: (w₂ ++ (msg ++ (w₃ ++ (b!";" ++ w₄)))))) ∧
    Spaces w₁ ∧ Actor actor ∧ Ws c ∧ Spaces w₂ ∧ Message msg name args ∧ Spaces w₃ ∧ Spaces w₄

end Knuckle.Spec
