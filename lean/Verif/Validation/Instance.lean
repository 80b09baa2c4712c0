/-
The expectations of tests/instance_test.cpp.

Generated by tools/validation.py.  These are tests of the model, checked by the kernel; they are not part of the proofs.
-/
import Verif.Model.Context

namespace Knuckle.Validation

/-- `Context::get_instance("", 3, 1e-9, true)`, `tests/instance_test.cpp:35`: only the precision matters here. -/
def prec : Int := 3

/-- `instance.type()`, `instance.value()` (`v`, if the test looks at it), `instance.representation()`. -/
def looksLike (o : Obj) (type : Str) (v : Option Obj) (repr : Str) : Bool :=
  o.type == type && (match v with | some v => o == v | none => true) && o.repr prec == repr

/-- The constructor with a representation. -/
def fromRepr (type s : Str) (v : Option Obj) (repr : Str) : Bool := match getSharedInstance type s with
  | .ok o => looksLike o type v repr
  | _ => false

/-- The constructor with a message. -/
def fromMessage (r : Res (Str × Inst)) (type name : Str) (v : Option Obj) (repr : Str) : Bool := match r with
  | .ok (n, .boolean x) => n == name && looksLike (.boolean x) type v repr
  | .ok (n, .character x) => n == name && looksLike (.character x) type v repr
  | .ok (n, .integer x) => n == name && looksLike (.integer x) type v repr
  | .ok (n, .float x) => n == name && looksLike (.float x) type v repr
  | .ok (n, .string x) => n == name && looksLike (.string x) type v repr
  | .ok (n, .vector _ l) => n == name && type == b!"Vector" && vectorRepr prec l == repr
  | .ok (n, .set _ l) => n == name && type == b!"Set" && setRepr prec l == repr
  | .ok (n, .dictionary _ _ l) => n == name && type == b!"Dictionary" && dictRepr prec l == repr
  | _ => false

/-- The constructor throws. -/
def throws {α : Type} : Res α → Bool
  | .err _ => true
  | _ => false

/-- `tests/instance_test.cpp:40` -/
example : (fromRepr b!"Boolean" b!"true" (some (.boolean (true))) b!"true") = true := by decide +kernel

/-- `tests/instance_test.cpp:48` -/
example : (fromRepr b!"Boolean" b!"false" (some (.boolean (false))) b!"false") = true := by decide +kernel

/-- `tests/instance_test.cpp:56` -/
example : (fromMessage (newBoolean b!"create:withValue:" [b!"b", b!"true"]) b!"Boolean" b!"b" (some (.boolean (true))) b!"true") = true := by decide +kernel

/-- `tests/instance_test.cpp:64` -/
example : (fromMessage (newBoolean b!"create:withValue:" [b!"b", b!"false"]) b!"Boolean" b!"b" (some (.boolean (false))) b!"false") = true := by decide +kernel

/-- `tests/instance_test.cpp:72` -/
example : (fromMessage (newBoolean b!"createIfNotExists:withValue:" [b!"b", b!"true"]) b!"Boolean" b!"b" (some (.boolean (true))) b!"true") = true := by decide +kernel

/-- `tests/instance_test.cpp:80` -/
example : (fromMessage (newBoolean b!"createIfNotExists:withValue:" [b!"b", b!"false"]) b!"Boolean" b!"b" (some (.boolean (false))) b!"false") = true := by decide +kernel

/-- `tests/instance_test.cpp:88` -/
example : (throws (getSharedInstance b!"Boolean" b!"42") &&
  throws (newBoolean b!"create:withValue:" [b!"t"]) &&
  throws (newBoolean b!"create:withValue:" [b!"t", b!"42"]) &&
  throws (newBoolean b!"create:withValue:" [b!"true", b!"t"]) &&
  throws (newBoolean b!"createIfNotExists:withValue:" [b!"t"]) &&
  throws (newBoolean b!"createIfNotExists:withValue:" [b!"t", b!"42"]) &&
  throws (newBoolean b!"createIfNotExists:withValue:" [b!"true", b!"t"])) = true := by decide +kernel

/-- `tests/instance_test.cpp:100` -/
example : (fromRepr b!"Character" b!"'1'" (some (.character (49))) b!"'1'") = true := by decide +kernel

/-- `tests/instance_test.cpp:108` -/
example : (fromMessage (newCharacter b!"create:withValue:" [b!"numeric", b!"'1'"]) b!"Character" b!"numeric" (some (.character (49))) b!"'1'") = true := by decide +kernel

/-- `tests/instance_test.cpp:116` -/
example : (fromMessage (newCharacter b!"createIfNotExists:withValue:" [b!"numeric", b!"'1'"]) b!"Character" b!"numeric" (some (.character (49))) b!"'1'") = true := by decide +kernel

/-- `tests/instance_test.cpp:124` -/
example : (throws (getSharedInstance b!"Character" b!"42") &&
  throws (newCharacter b!"create:withValue:" [b!"numeric"]) &&
  throws (newCharacter b!"create:withValue:" [b!"numeric", b!"42"]) &&
  throws (newCharacter b!"create:withValue:" [b!"'1'", b!"numeric"]) &&
  throws (newCharacter b!"createIfNotExists:withValue:" [b!"numeric"]) &&
  throws (newCharacter b!"createIfNotExists:withValue:" [b!"numeric", b!"42"]) &&
  throws (newCharacter b!"createIfNotExists:withValue:" [b!"'1'", b!"numeric"])) = true := by decide +kernel

/-- `tests/instance_test.cpp:136` -/
example : (looksLike (.integer 42) b!"Integer" (some (.integer (42))) b!"42") = true := by decide +kernel

/-- `tests/instance_test.cpp:144` -/
example : (fromRepr b!"Integer" b!"+42" (some (.integer (42))) b!"42") = true := by decide +kernel

/-- `tests/instance_test.cpp:152` -/
example : (fromRepr b!"Integer" b!"-42" (some (.integer (-42))) b!"-42") = true := by decide +kernel

/-- `tests/instance_test.cpp:160` -/
example : (fromRepr b!"Integer" b!"42.9" (some (.integer (42))) b!"42") = true := by decide +kernel

/-- `tests/instance_test.cpp:168` -/
example : (fromMessage (newInteger b!"create:withValue:" [b!"i", b!"42"]) b!"Integer" b!"i" (some (.integer (42))) b!"42") = true := by decide +kernel

/-- `tests/instance_test.cpp:176` -/
example : (fromMessage (newInteger b!"create:withValue:" [b!"i", b!"-42"]) b!"Integer" b!"i" (some (.integer (-42))) b!"-42") = true := by decide +kernel

/-- `tests/instance_test.cpp:184` -/
example : (fromMessage (newInteger b!"create:withValue:" [b!"i", b!"42.9"]) b!"Integer" b!"i" (some (.integer (42))) b!"42") = true := by decide +kernel

/-- `tests/instance_test.cpp:192` -/
example : (fromMessage (newInteger b!"createIfNotExists:withValue:" [b!"i", b!"42"]) b!"Integer" b!"i" (some (.integer (42))) b!"42") = true := by decide +kernel

/-- `tests/instance_test.cpp:200` -/
example : (fromMessage (newInteger b!"createIfNotExists:withValue:" [b!"i", b!"-42"]) b!"Integer" b!"i" (some (.integer (-42))) b!"-42") = true := by decide +kernel

/-- `tests/instance_test.cpp:208` -/
example : (fromMessage (newInteger b!"createIfNotExists:withValue:" [b!"i", b!"42.9"]) b!"Integer" b!"i" (some (.integer (42))) b!"42") = true := by decide +kernel

/-- `tests/instance_test.cpp:216` -/
example : (throws (getSharedInstance b!"Integer" b!"true") &&
  throws (newInteger b!"create:withValue:" [b!"i"]) &&
  throws (newInteger b!"create:withValue:" [b!"i", b!"true"]) &&
  throws (newInteger b!"create:withValue:" [b!"42", b!"i"]) &&
  throws (newInteger b!"createIfNotExists:withValue:" [b!"i"]) &&
  throws (newInteger b!"createIfNotExists:withValue:" [b!"i", b!"true"]) &&
  throws (newInteger b!"createIfNotExists:withValue:" [b!"42", b!"i"])) = true := by decide +kernel

/-- `tests/instance_test.cpp:228` -/
example : (looksLike (.float (atof b!"42.0").toF32) b!"Float" none b!"42.000") = true := by decide +kernel

/-- `tests/instance_test.cpp:235` -/
example : (fromRepr b!"Float" b!"42" none b!"42.000") = true := by decide +kernel

/-- `tests/instance_test.cpp:242` -/
example : (fromRepr b!"Float" b!"-42.0" none b!"-42.000") = true := by decide +kernel

/-- `tests/instance_test.cpp:249` -/
example : (fromRepr b!"Float" b!"1e-3" none b!"0.001") = true := by decide +kernel

/-- `tests/instance_test.cpp:256` -/
example : (fromMessage (newFloat b!"create:withValue:" [b!"f", b!"42"]) b!"Float" b!"f" none b!"42.000") = true := by decide +kernel

/-- `tests/instance_test.cpp:263` -/
example : (fromMessage (newFloat b!"create:withValue:" [b!"f", b!"-42.0"]) b!"Float" b!"f" none b!"-42.000") = true := by decide +kernel

/-- `tests/instance_test.cpp:270` -/
example : (fromMessage (newFloat b!"create:withValue:" [b!"f", b!"1e-3"]) b!"Float" b!"f" none b!"0.001") = true := by decide +kernel

/-- `tests/instance_test.cpp:277` -/
example : (fromMessage (newFloat b!"createIfNotExists:withValue:" [b!"f", b!"42"]) b!"Float" b!"f" none b!"42.000") = true := by decide +kernel

/-- `tests/instance_test.cpp:284` -/
example : (fromMessage (newFloat b!"createIfNotExists:withValue:" [b!"f", b!"-42.0"]) b!"Float" b!"f" none b!"-42.000") = true := by decide +kernel

/-- `tests/instance_test.cpp:291` -/
example : (fromMessage (newFloat b!"createIfNotExists:withValue:" [b!"f", b!"1e-3"]) b!"Float" b!"f" none b!"0.001") = true := by decide +kernel

/-- `tests/instance_test.cpp:298` -/
example : (throws (getSharedInstance b!"Float" b!"true") &&
  throws (newFloat b!"create:withValue:" [b!"f"]) &&
  throws (newFloat b!"create:withValue:" [b!"f", b!"true"]) &&
  throws (newFloat b!"create:withValue:" [b!"42.0", b!"f"]) &&
  throws (newFloat b!"createIfNotExists:withValue:" [b!"f"]) &&
  throws (newFloat b!"createIfNotExists:withValue:" [b!"f", b!"true"]) &&
  throws (newFloat b!"createIfNotExists:withValue:" [b!"42.0", b!"f"])) = true := by decide +kernel

/-- `tests/instance_test.cpp:310` -/
example : (fromRepr b!"String" b!"\"\"" (some (.string ([]))) b!"\"\"") = true := by decide +kernel

/-- `tests/instance_test.cpp:318` -/
example : (fromRepr b!"String" b!"\"knuckleball\"" (some (.string (b!"knuckleball"))) b!"\"knuckleball\"") = true := by decide +kernel

/-- `tests/instance_test.cpp:326` -/
example : (fromMessage (newString b!"create:" [b!"str"]) b!"String" b!"str" (some (.string ([]))) b!"\"\"") = true := by decide +kernel

/-- `tests/instance_test.cpp:334` -/
example : (fromMessage (newString b!"createIfNotExists:" [b!"str"]) b!"String" b!"str" (some (.string ([]))) b!"\"\"") = true := by decide +kernel

/-- `tests/instance_test.cpp:342` -/
example : (fromMessage (newString b!"create:withValue:" [b!"str", b!"\"knuckleball\""]) b!"String" b!"str" (some (.string (b!"knuckleball"))) b!"\"knuckleball\"") = true := by decide +kernel

/-- `tests/instance_test.cpp:350` -/
example : (fromMessage (newString b!"create:withValue:" [b!"str", b!"\"knuckle\\\"ball\""]) b!"String" b!"str" (some (.string (b!"knuckle\"ball"))) b!"\"knuckle\\\"ball\"") = true := by decide +kernel

/-- `tests/instance_test.cpp:358` -/
example : (fromMessage (newString b!"createIfNotExists:withValue:" [b!"str", b!"\"knuckleball\""]) b!"String" b!"str" (some (.string (b!"knuckleball"))) b!"\"knuckleball\"") = true := by decide +kernel

/-- `tests/instance_test.cpp:366` -/
example : (fromMessage (newString b!"createIfNotExists:withValue:" [b!"str", b!"\"knuckle\\\"ball\""]) b!"String" b!"str" (some (.string (b!"knuckle\"ball"))) b!"\"knuckle\\\"ball\"") = true := by decide +kernel

/-- `tests/instance_test.cpp:374` -/
example : (throws (getSharedInstance b!"String" b!"42") &&
  throws (newString b!"create:" []) &&
  throws (newString b!"createIfNotExists:" []) &&
  throws (newString b!"create:withValue:" [b!"str"]) &&
  throws (newString b!"create:withValue:" [b!"str", b!"42"]) &&
  throws (newString b!"create:withValue:" [b!"\"knuckleball\"", b!"str"]) &&
  throws (newString b!"createIfNotExists:withValue:" [b!"str"]) &&
  throws (newString b!"createIfNotExists:withValue:" [b!"str", b!"42"]) &&
  throws (newString b!"createIfNotExists:withValue:" [b!"\"knuckleball\"", b!"str"])) = true := by decide +kernel

/-- `tests/instance_test.cpp:388` -/
example : (fromMessage (newContainer (.vector b!"Integer" []) b!"create:" [b!"prices"]) b!"Vector" b!"prices" none b!"[]") = true := by decide +kernel

/-- `tests/instance_test.cpp:395` -/
example : (throws (newContainer (.vector b!"Integer" []) b!"create:" []) &&
  throws (newContainer (.vector b!"Integer" []) b!"create:" [b!"42"]) &&
  throws (newContainer (.vector b!"Integer" []) b!"create:" [b!"prices", b!"42"])) = true := by decide +kernel

/-- `tests/instance_test.cpp:403` -/
example : (fromMessage (newContainer (.set b!"String" []) b!"create:" [b!"ids"]) b!"Set" b!"ids" none b!"{}") = true := by decide +kernel

/-- `tests/instance_test.cpp:410` -/
example : (throws (newContainer (.set b!"String" []) b!"create:" []) &&
  throws (newContainer (.set b!"String" []) b!"create:" [b!"42"]) &&
  throws (newContainer (.set b!"String" []) b!"create:" [b!"ids", b!"42"])) = true := by decide +kernel

/-- `tests/instance_test.cpp:418` -/
example : (fromMessage (newContainer (.dictionary b!"String" b!"Integer" []) b!"create:" [b!"ages"]) b!"Dictionary" b!"ages" none b!"()") = true := by decide +kernel

/-- `tests/instance_test.cpp:425` -/
example : (throws (newContainer (.dictionary b!"String" b!"Integer" []) b!"create:" []) &&
  throws (newContainer (.dictionary b!"String" b!"Integer" []) b!"create:" [b!"42"]) &&
  throws (newContainer (.dictionary b!"String" b!"Integer" []) b!"create:" [b!"ages", b!"42"])) = true := by decide +kernel

end Knuckle.Validation
