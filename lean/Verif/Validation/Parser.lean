/-
The expectations of tests/parser_test.cpp.

Generated by tools/validation.py.  These are tests of the model, checked by the kernel; they are not part of the proofs.
-/
import Verif.Model.Parser

namespace Knuckle.Validation

/-- The parser throws. -/
def refuses (s : Str) : Bool := match parse s with
  | .err _ => true
  | _ => false

/-- `tests/parser_test.cpp:32` -/
example : parse b!"Boolean create: b withValue: true;" =
    .ok ⟨b!"Boolean", b!"create:withValue:", [b!"b", b!"true"]⟩ := by decide +kernel

/-- `tests/parser_test.cpp:39` -/
example : parse b!"b get;" =
    .ok ⟨b!"b", b!"get", []⟩ := by decide +kernel

/-- `tests/parser_test.cpp:46` -/
example : parse b!"b isTrue?;" =
    .ok ⟨b!"b", b!"isTrue?", []⟩ := by decide +kernel

/-- `tests/parser_test.cpp:53` -/
example : parse b!"b set: false;" =
    .ok ⟨b!"b", b!"set:", [b!"false"]⟩ := by decide +kernel

/-- `tests/parser_test.cpp:60` -/
example : parse b!"Character create: numeric withValue: '1';" =
    .ok ⟨b!"Character", b!"create:withValue:", [b!"numeric", b!"'1'"]⟩ := by decide +kernel

/-- `tests/parser_test.cpp:67` -/
example : parse b!"i isEqualTo? -42;" =
    .ok ⟨b!"i", b!"isEqualTo?", [b!"-42"]⟩ := by decide +kernel

/-- `tests/parser_test.cpp:74` -/
example : parse b!"Float createIfNotExists: f withValue: -42.0;" =
    .ok ⟨b!"Float", b!"createIfNotExists:withValue:", [b!"f", b!"-42.0"]⟩ := by decide +kernel

/-- `tests/parser_test.cpp:81` -/
example : parse b!"String create: str withValue: \"knuckleball\";" =
    .ok ⟨b!"String", b!"create:withValue:", [b!"str", b!"\"knuckleball\""]⟩ := by decide +kernel

/-- `tests/parser_test.cpp:88` -/
example : parse b!"str replaceFirst: \"knuckle\" fromIndex: 0 with: \"ball\";" =
    .ok ⟨b!"str", b!"replaceFirst:fromIndex:with:", [b!"\"knuckle\"", b!"0", b!"\"ball\""]⟩ := by decide +kernel

/-- `tests/parser_test.cpp:95` -/
example : parse b!"Vector<Integer> create: prices;" =
    .ok ⟨b!"Vector<Integer>", b!"create:", [b!"prices"]⟩ := by decide +kernel

/-- `tests/parser_test.cpp:102` -/
example : parse b!"Set<String> create: ids;" =
    .ok ⟨b!"Set<String>", b!"create:", [b!"ids"]⟩ := by decide +kernel

/-- `tests/parser_test.cpp:109` -/
example : parse b!"Dictionary<String, Integer> create: ages;" =
    .ok ⟨b!"Dictionary<String, Integer>", b!"create:", [b!"ages"]⟩ := by decide +kernel

/-- `tests/parser_test.cpp:116` -/
example : parse b!"Context listVariablesOfNamespace: std;" =
    .ok ⟨b!"Context", b!"listVariablesOfNamespace:", [b!"std"]⟩ := by decide +kernel

/-- `tests/parser_test.cpp:125` -/
example : parse b!"  prices  get  ;  " =
    .ok ⟨b!"prices", b!"get", []⟩ := by decide +kernel

/-- `tests/parser_test.cpp:132` -/
example : parse b!"  Integer  create:  i  withValue:  +42  ;" =
    .ok ⟨b!"Integer", b!"create:withValue:", [b!"i", b!"+42"]⟩ := by decide +kernel

/-- `tests/parser_test.cpp:139` -/
example : parse b!"Integer create:i withValue:-42;" =
    .ok ⟨b!"Integer", b!"create:withValue:", [b!"i", b!"-42"]⟩ := by decide +kernel

/-- `tests/parser_test.cpp:146` -/
example : parse b!"String create: str withValue: \"one two three four\";" =
    .ok ⟨b!"String", b!"create:withValue:", [b!"str", b!"\"one two three four\""]⟩ := by decide +kernel

/-- `tests/parser_test.cpp:155` -/
example : (refuses b!"42;" &&
  refuses b!"true;" &&
  refuses b!"42 add: 1;" &&
  refuses b!"true get;" &&
  refuses b!"Integer;" &&
  refuses b!"Context;" &&
  refuses b!"std::prices;" &&
  refuses b!"create: i withValue: 42;" &&
  refuses b!"Integer create: i withValue: 42" &&
  refuses b!"Integer create: i withValue: ;" &&
  refuses b!"Integer create: withValue: 42;") = true := by decide +kernel

end Knuckle.Validation
