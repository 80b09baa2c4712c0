/-
The reference manual of README.md, and what its words mean.

The table `manual` is generated by tools/reference.py from the sections "Reference" of README.md.
-/
import Verif.Spec.Errors

namespace Knuckle.Spec

/-- The words the manual uses for arguments and replies. -/
inductive DocKind
  | null | boolean | character | integer | float | string | object | vector | set | dictionary | variable | namespace

/-- An entry of the manual: the section, whether it is under "Constructors" or under "Methods", the message, its arguments
and what it returns. -/
structure DocEntry where
  part : Str
  constructor : Bool
  name : Str
  args : List DocKind
  returns : DocKind

/-- The entries of the manual; the numbers are lines of README.md. -/
def manual : List DocEntry := [
  /- 124 -/ ⟨b!"Boolean", true, b!"create:withValue:", [.variable, .boolean], .null⟩,
  /- 137 -/ ⟨b!"Boolean", true, b!"createIfNotExists:withValue:", [.variable, .boolean], .null⟩,
  /- 151 -/ ⟨b!"Boolean", false, b!"get", [], .boolean⟩,
  /- 160 -/ ⟨b!"Boolean", false, b!"set:", [.boolean], .null⟩,
  /- 171 -/ ⟨b!"Boolean", false, b!"isTrue?", [], .boolean⟩,
  /- 184 -/ ⟨b!"Boolean", false, b!"isFalse?", [], .boolean⟩,
  /- 201 -/ ⟨b!"Character", true, b!"create:withValue:", [.variable, .character], .null⟩,
  /- 218 -/ ⟨b!"Character", true, b!"createIfNotExists:withValue:", [.variable, .character], .null⟩,
  /- 236 -/ ⟨b!"Character", false, b!"get", [], .character⟩,
  /- 245 -/ ⟨b!"Character", false, b!"set:", [.character], .null⟩,
  /- 256 -/ ⟨b!"Character", false, b!"isAlphabetic?", [], .boolean⟩,
  /- 273 -/ ⟨b!"Character", false, b!"isNumeric?", [], .boolean⟩,
  /- 290 -/ ⟨b!"Character", false, b!"isAlphanumeric?", [], .boolean⟩,
  /- 307 -/ ⟨b!"Character", false, b!"isSpace?", [], .boolean⟩,
  /- 324 -/ ⟨b!"Character", false, b!"isEqualTo?", [.character], .boolean⟩,
  /- 335 -/ ⟨b!"Character", false, b!"isLessThan?", [.character], .boolean⟩,
  /- 346 -/ ⟨b!"Character", false, b!"isLessThanOrEqualTo?", [.character], .boolean⟩,
  /- 357 -/ ⟨b!"Character", false, b!"isGreaterThan?", [.character], .boolean⟩,
  /- 368 -/ ⟨b!"Character", false, b!"isGreaterThanOrEqualTo?", [.character], .boolean⟩,
  /- 383 -/ ⟨b!"Integer", true, b!"create:withValue:", [.variable, .integer], .null⟩,
  /- 392 -/ ⟨b!"Integer", true, b!"createIfNotExists:withValue:", [.variable, .integer], .null⟩,
  /- 402 -/ ⟨b!"Integer", false, b!"get", [], .integer⟩,
  /- 411 -/ ⟨b!"Integer", false, b!"set:", [.integer], .null⟩,
  /- 422 -/ ⟨b!"Integer", false, b!"isEqualTo?", [.integer], .boolean⟩,
  /- 433 -/ ⟨b!"Integer", false, b!"isLessThan?", [.integer], .boolean⟩,
  /- 444 -/ ⟨b!"Integer", false, b!"isLessThanOrEqualTo?", [.integer], .boolean⟩,
  /- 455 -/ ⟨b!"Integer", false, b!"isGreaterThan?", [.integer], .boolean⟩,
  /- 466 -/ ⟨b!"Integer", false, b!"isGreaterThanOrEqualTo?", [.integer], .boolean⟩,
  /- 477 -/ ⟨b!"Integer", false, b!"add:", [.integer], .null⟩,
  /- 488 -/ ⟨b!"Integer", false, b!"subtract:", [.integer], .null⟩,
  /- 499 -/ ⟨b!"Integer", false, b!"multiplyBy:", [.float], .null⟩,
  /- 510 -/ ⟨b!"Integer", false, b!"divideBy:", [.float], .null⟩,
  /- 525 -/ ⟨b!"Float", true, b!"create:withValue:", [.variable, .float], .null⟩,
  /- 538 -/ ⟨b!"Float", true, b!"createIfNotExists:withValue:", [.variable, .float], .null⟩,
  /- 552 -/ ⟨b!"Float", false, b!"get", [], .float⟩,
  /- 561 -/ ⟨b!"Float", false, b!"set:", [.float], .null⟩,
  /- 572 -/ ⟨b!"Float", false, b!"isEqualTo?", [.float], .boolean⟩,
  /- 583 -/ ⟨b!"Float", false, b!"isLessThan?", [.float], .boolean⟩,
  /- 594 -/ ⟨b!"Float", false, b!"isLessThanOrEqualTo?", [.float], .boolean⟩,
  /- 605 -/ ⟨b!"Float", false, b!"isGreaterThan?", [.float], .boolean⟩,
  /- 616 -/ ⟨b!"Float", false, b!"isGreaterThanOrEqualTo?", [.float], .boolean⟩,
  /- 627 -/ ⟨b!"Float", false, b!"add:", [.float], .null⟩,
  /- 638 -/ ⟨b!"Float", false, b!"subtract:", [.float], .null⟩,
  /- 649 -/ ⟨b!"Float", false, b!"multiplyBy:", [.float], .null⟩,
  /- 660 -/ ⟨b!"Float", false, b!"divideBy:", [.float], .null⟩,
  /- 675 -/ ⟨b!"String", true, b!"create:", [.variable], .null⟩,
  /- 684 -/ ⟨b!"String", true, b!"createIfNotExists:", [.variable], .null⟩,
  /- 693 -/ ⟨b!"String", true, b!"create:withValue:", [.variable, .string], .null⟩,
  /- 702 -/ ⟨b!"String", true, b!"createIfNotExists:withValue:", [.variable, .string], .null⟩,
  /- 712 -/ ⟨b!"String", false, b!"get", [], .string⟩,
  /- 721 -/ ⟨b!"String", false, b!"set:", [.string], .null⟩,
  /- 732 -/ ⟨b!"String", false, b!"isEmpty?", [], .boolean⟩,
  /- 745 -/ ⟨b!"String", false, b!"startsWith?", [.string], .boolean⟩,
  /- 756 -/ ⟨b!"String", false, b!"endsWith?", [.string], .boolean⟩,
  /- 767 -/ ⟨b!"String", false, b!"isLexicographicallyEqualTo?", [.string], .boolean⟩,
  /- 778 -/ ⟨b!"String", false, b!"isLexicographicallyLessThan?", [.string], .boolean⟩,
  /- 789 -/ ⟨b!"String", false, b!"isLexicographicallyLessThanOrEqualTo?", [.string], .boolean⟩,
  /- 800 -/ ⟨b!"String", false, b!"isLexicographicallyGreaterThan?", [.string], .boolean⟩,
  /- 811 -/ ⟨b!"String", false, b!"isLexicographicallyGreaterThanOrEqualTo?", [.string], .boolean⟩,
  /- 822 -/ ⟨b!"String", false, b!"length", [], .integer⟩,
  /- 831 -/ ⟨b!"String", false, b!"atIndex:", [.integer], .character⟩,
  /- 840 -/ ⟨b!"String", false, b!"first:", [.integer], .string⟩,
  /- 849 -/ ⟨b!"String", false, b!"last:", [.integer], .string⟩,
  /- 858 -/ ⟨b!"String", false, b!"substringFromIndex:", [.integer], .string⟩,
  /- 867 -/ ⟨b!"String", false, b!"substringFromIndex:toIndex:", [.integer, .integer], .string⟩,
  /- 876 -/ ⟨b!"String", false, b!"pushBack:", [.character], .null⟩,
  /- 887 -/ ⟨b!"String", false, b!"pushFront:", [.character], .null⟩,
  /- 898 -/ ⟨b!"String", false, b!"popBack", [], .character⟩,
  /- 909 -/ ⟨b!"String", false, b!"popFront", [], .character⟩,
  /- 920 -/ ⟨b!"String", false, b!"popAtIndex:", [.integer], .character⟩,
  /- 931 -/ ⟨b!"String", false, b!"concatenate:", [.string], .null⟩,
  /- 942 -/ ⟨b!"String", false, b!"insert:beforeIndex:", [.string, .integer], .null⟩,
  /- 953 -/ ⟨b!"String", false, b!"eraseFromIndex:", [.integer], .null⟩,
  /- 964 -/ ⟨b!"String", false, b!"eraseFromIndex:toIndex:", [.integer, .integer], .null⟩,
  /- 975 -/ ⟨b!"String", false, b!"clear", [], .null⟩,
  /- 990 -/ ⟨b!"Vector", true, b!"create:", [.variable], .null⟩,
  /- 999 -/ ⟨b!"Vector", true, b!"createIfNotExists:", [.variable], .null⟩,
  /- 1009 -/ ⟨b!"Vector", false, b!"get", [], .vector⟩,
  /- 1018 -/ ⟨b!"Vector", false, b!"isEmpty?", [], .boolean⟩,
  /- 1031 -/ ⟨b!"Vector", false, b!"contains?", [.object], .boolean⟩,
  /- 1044 -/ ⟨b!"Vector", false, b!"contains?fromIndex:", [.object, .integer], .boolean⟩,
  /- 1061 -/ ⟨b!"Vector", false, b!"count:", [.object], .integer⟩,
  /- 1076 -/ ⟨b!"Vector", false, b!"atIndex:", [.integer], .object⟩,
  /- 1091 -/ ⟨b!"Vector", false, b!"firstIndexOf:", [.object], .integer⟩,
  /- 1108 -/ ⟨b!"Vector", false, b!"firstIndexOf:fromIndex:", [.object, .integer], .integer⟩,
  /- 1125 -/ ⟨b!"Vector", false, b!"allIndexesOf:", [.object], .vector⟩,
  /- 1140 -/ ⟨b!"Vector", false, b!"size", [], .integer⟩,
  /- 1155 -/ ⟨b!"Vector", false, b!"first:", [.integer], .vector⟩,
  /- 1170 -/ ⟨b!"Vector", false, b!"last:", [.integer], .vector⟩,
  /- 1185 -/ ⟨b!"Vector", false, b!"sliceFromIndex:", [.integer], .vector⟩,
  /- 1202 -/ ⟨b!"Vector", false, b!"sliceFromIndex:toIndex:", [.integer, .integer], .vector⟩,
  /- 1219 -/ ⟨b!"Vector", false, b!"pushBack:", [.object], .null⟩,
  /- 1234 -/ ⟨b!"Vector", false, b!"pushFront:", [.object], .null⟩,
  /- 1249 -/ ⟨b!"Vector", false, b!"popBack", [], .object⟩,
  /- 1266 -/ ⟨b!"Vector", false, b!"popFront", [], .object⟩,
  /- 1283 -/ ⟨b!"Vector", false, b!"popAtIndex:", [.integer], .object⟩,
  /- 1300 -/ ⟨b!"Vector", false, b!"insert:beforeIndex:", [.object, .integer], .null⟩,
  /- 1315 -/ ⟨b!"Vector", false, b!"eraseFromIndex:", [.integer], .null⟩,
  /- 1332 -/ ⟨b!"Vector", false, b!"eraseFromIndex:toIndex:", [.integer, .integer], .null⟩,
  /- 1349 -/ ⟨b!"Vector", false, b!"removeFirst:", [.object], .null⟩,
  /- 1368 -/ ⟨b!"Vector", false, b!"removeFirst:fromIndex:", [.object, .integer], .null⟩,
  /- 1387 -/ ⟨b!"Vector", false, b!"removeAll:", [.object], .null⟩,
  /- 1406 -/ ⟨b!"Vector", false, b!"replaceFirst:with:", [.object, .object], .null⟩,
  /- 1425 -/ ⟨b!"Vector", false, b!"replaceFirst:fromIndex:with:", [.object, .integer, .object], .null⟩,
  /- 1444 -/ ⟨b!"Vector", false, b!"replaceAll:with:", [.object, .object], .null⟩,
  /- 1463 -/ ⟨b!"Vector", false, b!"sort", [], .null⟩,
  /- 1480 -/ ⟨b!"Vector", false, b!"reverse", [], .null⟩,
  /- 1497 -/ ⟨b!"Vector", false, b!"clear", [], .null⟩,
  /- 1518 -/ ⟨b!"Set", true, b!"create:", [.variable], .null⟩,
  /- 1527 -/ ⟨b!"Set", true, b!"createIfNotExists:", [.variable], .null⟩,
  /- 1537 -/ ⟨b!"Set", false, b!"get", [], .set⟩,
  /- 1546 -/ ⟨b!"Set", false, b!"isEmpty?", [], .boolean⟩,
  /- 1559 -/ ⟨b!"Set", false, b!"contains?", [.object], .boolean⟩,
  /- 1572 -/ ⟨b!"Set", false, b!"size", [], .integer⟩,
  /- 1587 -/ ⟨b!"Set", false, b!"add:", [.object], .null⟩,
  /- 1598 -/ ⟨b!"Set", false, b!"remove:", [.object], .null⟩,
  /- 1611 -/ ⟨b!"Set", false, b!"clear", [], .null⟩,
  /- 1632 -/ ⟨b!"Dictionary", true, b!"create:", [.variable], .null⟩,
  /- 1641 -/ ⟨b!"Dictionary", true, b!"createIfNotExists:", [.variable], .null⟩,
  /- 1651 -/ ⟨b!"Dictionary", false, b!"get", [], .dictionary⟩,
  /- 1660 -/ ⟨b!"Dictionary", false, b!"isEmpty?", [], .boolean⟩,
  /- 1673 -/ ⟨b!"Dictionary", false, b!"containsKey?", [.object], .boolean⟩,
  /- 1686 -/ ⟨b!"Dictionary", false, b!"size", [], .integer⟩,
  /- 1699 -/ ⟨b!"Dictionary", false, b!"keys", [], .vector⟩,
  /- 1714 -/ ⟨b!"Dictionary", false, b!"values", [], .vector⟩,
  /- 1729 -/ ⟨b!"Dictionary", false, b!"getValueForKey:", [.object], .object⟩,
  /- 1740 -/ ⟨b!"Dictionary", false, b!"associateValue:withKey:", [.object, .object], .null⟩,
  /- 1751 -/ ⟨b!"Dictionary", false, b!"removeKey:", [.object], .null⟩,
  /- 1764 -/ ⟨b!"Dictionary", false, b!"clear", [], .null⟩,
  /- 1785 -/ ⟨b!"Context", false, b!"listNamespaces", [], .vector⟩,
  /- 1796 -/ ⟨b!"Context", false, b!"listVariables", [], .vector⟩,
  /- 1807 -/ ⟨b!"Context", false, b!"listVariablesOfNamespace:", [.namespace], .vector⟩,
  /- 1820 -/ ⟨b!"Context", false, b!"deleteVariable:", [.variable], .null⟩,
  /- 1833 -/ ⟨b!"Context", false, b!"deleteVariablesOfNamespace:", [.namespace], .null⟩,
  /- 1848 -/ ⟨b!"Context", false, b!"getFloatPrecision", [], .integer⟩,
  /- 1857 -/ ⟨b!"Context", false, b!"setFloatPrecision:", [.integer], .null⟩,
  /- 1868 -/ ⟨b!"Context", false, b!"getFloatComparisonTolerance", [], .float⟩,
  /- 1877 -/ ⟨b!"Context", false, b!"setFloatComparisonTolerance:", [.float], .null⟩,
  /- 1896 -/ ⟨b!"Connection", false, b!"authenticateWithPassword:", [.string], .null⟩,
  /- 1903 -/ ⟨b!"Connection", false, b!"close", [], .null⟩]

/-- The section of the manual about objects with this value. -/
def partOf : Inst → Str
  | .boolean _ => b!"Boolean"
  | .character _ => b!"Character"
  | .integer _ => b!"Integer"
  | .float _ => b!"Float"
  | .string _ => b!"String"
  | .vector _ _ => b!"Vector"
  | .set _ _ => b!"Set"
  | .dictionary _ _ _ => b!"Dictionary"

/-- `DocFor c a part constructor`: what the receiver `a` understands is to be found in this section of the manual, for a
type under "Constructors", for a variable under "Methods". -/
inductive DocFor (c : Ctx) : Str → Str → Bool → Prop
  | object {t} : ObjectType t → DocFor c t t true
  | vector {a} : VectorType a → DocFor c a b!"Vector" true
  | set {a} : SetType a → DocFor c a b!"Set" true
  | dictionary {a} : DictionaryType a → DocFor c a b!"Dictionary" true
  | variable {n i} : Holds c n i → DocFor c n (partOf i) false
  | context : DocFor c b!"Context" b!"Context" false
  | connection : DocFor c b!"Connection" b!"Connection" false

/-- `e` is the entry of the manual for the message `name` to `a`. -/
def Documented (c : Ctx) (a name : Str) (e : DocEntry) : Prop :=
  e ∈ manual ∧ DocFor c a e.part e.constructor ∧ e.name = name

/-- The types the word "object" stands for in the arguments of a message to the receiver `a`: for a vector or set its
element type, for a dictionary its key type, but its value type for the first argument of `associateValue:withKey:`. -/
inductive ObjectArg (c : Ctx) : Str → Str → Nat → Str → Prop
  | vector {n t l name k} : Holds c n (.vector t l) → ObjectArg c n name k t
  | set {n t l name k} : Holds c n (.set t l) → ObjectArg c n name k t
  | key {n t u l name k} : Holds c n (.dictionary t u l) → (name, k) ≠ (b!"associateValue:withKey:", 0) → ObjectArg c n name k t
  | value {n t u l} : Holds c n (.dictionary t u l) → ObjectArg c n b!"associateValue:withKey:" 0 u

/-- The text `a` is an argument of the documented kind; where `object` is documented, a literal of a type in `obj`. -/
def OfKind (obj : Str → Prop) : DocKind → Str → Prop
  | .boolean, a => BooleanValue a
  | .character, a => CharacterValue a
  | .integer, a => IntegerValue a
  | .float, a => FloatValue a
  | .string, a => StringValue a
  | .object, a => ∃ t, obj t ∧ LiteralOf t a
  | .variable, a => Variable a
  | .namespace, a => Identifier a
  | _, _ => False

/-- The text shows a value of type `t`. -/
def Shows (t r : Str) : Prop :=
  (t = b!"Boolean" ∧ BooleanValue r) ∨ (t = b!"Character" ∧ CharacterValue r) ∨
  (t = b!"Integer" ∧ ∃ n, IntLiteral r n ∧ IsInt32 n) ∨
  (t = b!"Float" ∧ (FloatValue r ∨ r ∈ [b!"inf", b!"-inf", b!"-nan"])) ∨
  (t = b!"String" ∧ ∃ v, r = quoted v)

/-- The text is a reply of the documented kind: a vector shows values of one type or names, a dictionary shows pairs. -/
def ReplyOf : DocKind → Str → Prop
  | .null, r => r = b!"null"
  | .boolean, r => Shows b!"Boolean" r
  | .character, r => Shows b!"Character" r
  | .integer, r => IntegerValue r
  | .float, r => Shows b!"Float" r
  | .string, r => Shows b!"String" r
  | .object, r => ∃ t, Shows t r
  | .vector, r => ∃ xs, r = listText c!"[" c!"]" xs ∧
      ((∃ t, ∀ x ∈ xs, Shows t x) ∨ (∀ x ∈ xs, IntegerValue x) ∨ ∀ x ∈ xs, Variable x)
  | .set, r => ∃ xs t, r = listText c!"{" c!"}" xs ∧ ∀ x ∈ xs, Shows t x
  | .dictionary, r => ∃ xs t u, r = listText c!"(" c!")" xs ∧
      ∀ x ∈ xs, ∃ y z, x = listText c!"(" c!")" [y, z] ∧ Shows t y ∧ Shows u z
  | .variable, r => Variable r
  | .namespace, r => Identifier r

end Knuckle.Spec
