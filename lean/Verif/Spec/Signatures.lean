/-
Which messages each type understands, and with which arguments: the names of `README.md`.
-/
import Verif.Spec.Messages

namespace Knuckle.Spec

/-- What may be given as an argument. -/
inductive ArgKind
  /-- a literal accepted for type `t` -/
  | lit (t : Str)
  /-- any number -/
  | number
  /-- the name of a variable -/
  | name
  /-- the name of a namespace -/
  | namespace

/-- The text `a` is a literal of this kind. -/
def Fits : ArgKind → Str → Prop
  | .lit t, a => LiteralOf t a
  | .number, a => IntegerValue a ∨ FloatValue a
  | .name, a => Variable a
  | .namespace, a => Identifier a

/-- The text `a` is a number that does not fit in 32 bits, given where an integer is read. -/
def Overflows : ArgKind → Str → Prop
  | .lit t, a => t = b!"Integer" ∧ OutOfRange a
  | .number, a => ∃ n, IntLiteral a n ∧ ¬ IsInt32 n
  | .name, _ => False
  | .namespace, _ => False

/-- The messages an instance understands. -/
def signature : Inst → List (Str × List ArgKind)
  | .boolean _ => [
    (b!"get", []), (b!"set:", [.lit b!"Boolean"]), (b!"isTrue?", []), (b!"isFalse?", [])]
  | .character _ => [
    (b!"get", []), (b!"set:", [.lit b!"Character"]), (b!"isAlphabetic?", []), (b!"isNumeric?", []),
    (b!"isAlphanumeric?", []), (b!"isSpace?", []), (b!"isEqualTo?", [.lit b!"Character"]),
    (b!"isLessThan?", [.lit b!"Character"]), (b!"isLessThanOrEqualTo?", [.lit b!"Character"]),
    (b!"isGreaterThan?", [.lit b!"Character"]), (b!"isGreaterThanOrEqualTo?", [.lit b!"Character"])]
  | .integer _ => [
    (b!"get", []), (b!"set:", [.lit b!"Integer"]), (b!"isEqualTo?", [.number]), (b!"isLessThan?", [.number]),
    (b!"isLessThanOrEqualTo?", [.number]), (b!"isGreaterThan?", [.number]), (b!"isGreaterThanOrEqualTo?", [.number]),
    (b!"add:", [.number]), (b!"subtract:", [.number]), (b!"multiplyBy:", [.number]), (b!"divideBy:", [.number])]
  | .float _ => [
    (b!"get", []), (b!"set:", [.lit b!"Float"]), (b!"isEqualTo?", [.lit b!"Float"]), (b!"isLessThan?", [.lit b!"Float"]),
    (b!"isLessThanOrEqualTo?", [.lit b!"Float"]), (b!"isGreaterThan?", [.lit b!"Float"]),
    (b!"isGreaterThanOrEqualTo?", [.lit b!"Float"]), (b!"add:", [.lit b!"Float"]), (b!"subtract:", [.lit b!"Float"]),
    (b!"multiplyBy:", [.lit b!"Float"]), (b!"divideBy:", [.lit b!"Float"])]
  | .string _ => [
    (b!"get", []), (b!"set:", [.lit b!"String"]), (b!"isEmpty?", []), (b!"startsWith?", [.lit b!"String"]),
    (b!"endsWith?", [.lit b!"String"]), (b!"isLexicographicallyEqualTo?", [.lit b!"String"]),
    (b!"isLexicographicallyLessThan?", [.lit b!"String"]), (b!"isLexicographicallyLessThanOrEqualTo?", [.lit b!"String"]),
    (b!"isLexicographicallyGreaterThan?", [.lit b!"String"]),
    (b!"isLexicographicallyGreaterThanOrEqualTo?", [.lit b!"String"]), (b!"length", []), (b!"atIndex:", [.lit b!"Integer"]),
    (b!"first:", [.lit b!"Integer"]), (b!"last:", [.lit b!"Integer"]), (b!"substringFromIndex:", [.lit b!"Integer"]),
    (b!"substringFromIndex:toIndex:", [.lit b!"Integer", .lit b!"Integer"]), (b!"pushBack:", [.lit b!"Character"]),
    (b!"pushFront:", [.lit b!"Character"]), (b!"popBack", []), (b!"popFront", []), (b!"popAtIndex:", [.lit b!"Integer"]),
    (b!"concatenate:", [.lit b!"String"]), (b!"insert:beforeIndex:", [.lit b!"String", .lit b!"Integer"]),
    (b!"eraseFromIndex:", [.lit b!"Integer"]), (b!"eraseFromIndex:toIndex:", [.lit b!"Integer", .lit b!"Integer"]),
    (b!"clear", [])]
  | .vector t _ => [
    (b!"get", []), (b!"isEmpty?", []), (b!"contains?", [.lit t]), (b!"contains?fromIndex:", [.lit t, .lit b!"Integer"]),
    (b!"count:", [.lit t]), (b!"atIndex:", [.lit b!"Integer"]), (b!"firstIndexOf:", [.lit t]),
    (b!"firstIndexOf:fromIndex:", [.lit t, .lit b!"Integer"]), (b!"allIndexesOf:", [.lit t]), (b!"size", []),
    (b!"first:", [.lit b!"Integer"]), (b!"last:", [.lit b!"Integer"]), (b!"sliceFromIndex:", [.lit b!"Integer"]),
    (b!"sliceFromIndex:toIndex:", [.lit b!"Integer", .lit b!"Integer"]), (b!"pushBack:", [.lit t]),
    (b!"pushFront:", [.lit t]), (b!"popBack", []), (b!"popFront", []), (b!"popAtIndex:", [.lit b!"Integer"]),
    (b!"insert:beforeIndex:", [.lit t, .lit b!"Integer"]), (b!"eraseFromIndex:", [.lit b!"Integer"]),
    (b!"eraseFromIndex:toIndex:", [.lit b!"Integer", .lit b!"Integer"]), (b!"removeFirst:", [.lit t]),
    (b!"removeFirst:fromIndex:", [.lit t, .lit b!"Integer"]), (b!"removeAll:", [.lit t]),
    (b!"replaceFirst:with:", [.lit t, .lit t]), (b!"replaceFirst:fromIndex:with:", [.lit t, .lit b!"Integer", .lit t]),
    (b!"replaceAll:with:", [.lit t, .lit t]), (b!"sort", []), (b!"reverse", []), (b!"clear", [])]
  | .set t _ => [
    (b!"get", []), (b!"isEmpty?", []), (b!"contains?", [.lit t]), (b!"size", []), (b!"add:", [.lit t]),
    (b!"remove:", [.lit t]), (b!"clear", [])]
  | .dictionary t u _ => [
    (b!"get", []), (b!"isEmpty?", []), (b!"containsKey?", [.lit t]), (b!"size", []), (b!"keys", []), (b!"values", []),
    (b!"getValueForKey:", [.lit t]), (b!"associateValue:withKey:", [.lit u, .lit t]), (b!"removeKey:", [.lit t]),
    (b!"clear", [])]

/-- The messages a type understands: only those that create a variable. -/
inductive Creation : Str → Str → List ArgKind → Prop
  | value {t name} : ObjectType t → name ∈ [b!"create:withValue:", b!"createIfNotExists:withValue:"] →
      Creation t name [.name, .lit t]
  | string {name} : name ∈ [b!"create:", b!"createIfNotExists:"] → Creation b!"String" name [.name]
  | container {t name} : ContainerType t → name ∈ [b!"create:", b!"createIfNotExists:"] → Creation t name [.name]

/-- A variable holding one object value. -/
def ofObj : Obj → Inst
  | .boolean v => .boolean v
  | .character v => .character v
  | .integer v => .integer v
  | .float v => .float v
  | .string v => .string v

/-- `Creates actor name args n i`: the message `name` with `args` to the type `actor` asks for a variable `n` with value
`i`: a value of an object type, an empty string, or an empty container. -/
inductive Creates : Str → Str → List Str → Str → Inst → Prop
  | value {t name n a o} : ObjectType t → name ∈ [b!"create:withValue:", b!"createIfNotExists:withValue:"] → Variable n →
      Denotes t a o → Creates t name [n, a] n (ofObj o)
  | string {name n} : name ∈ [b!"create:", b!"createIfNotExists:"] → Variable n → Creates b!"String" name [n] n (.string [])
  | vector {w t w' name n} : Spaces w → ObjectType t → Spaces w' → name ∈ [b!"create:", b!"createIfNotExists:"] →
      Variable n → Creates (b!"Vector<" ++ (w ++ (t ++ (w' ++ b!">")))) name [n] n (.vector t [])
  | set {w t w' name n} : Spaces w → ObjectType t → Spaces w' → name ∈ [b!"create:", b!"createIfNotExists:"] →
      Variable n → Creates (b!"Set<" ++ (w ++ (t ++ (w' ++ b!">")))) name [n] n (.set t [])
  | dictionary {w t w' v u v' name n} : Spaces w → ObjectType t → Spaces w' → Spaces v → ObjectType u → Spaces v' →
      name ∈ [b!"create:", b!"createIfNotExists:"] → Variable n →
      Creates (b!"Dictionary<" ++ (w ++ (t ++ (w' ++ (b!"," ++ (v ++ (u ++ (v' ++ b!">"))))))))
        name [n] n (.dictionary t u [])

end Knuckle.Spec
