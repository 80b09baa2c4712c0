/-
The expectations of tests/context_test.cpp.

Generated by tools/validation.py.  These are tests of the model, checked by the kernel; they are not part of the proofs.
-/
import Verif.Model.Server
import Verif.Proofs.Sort

namespace Knuckle.Validation

/-- All requests of the test are defined and the expected replies are given. -/
def replay (c : Ctx) : List (Str × Option Str) → Bool
  | [] => true
  | (i, e) :: r => match @execute insertionStdSort [] c none i with
    | .ub => false
    | .done (c', _, o) => (match e with | none => true | some e => e == o) && replay c' r

/-- `Context::get_instance("", 3, 0.001, true)`, `tests/context_test.cpp:36`. -/
def start : Ctx := Ctx.init 3 (atof b!"0.001").toF32 false true

/-- `tests/context_test.cpp:42` -/
example : replay start [
  (b!"Context listNamespaces;", some b!"[]"),
  (b!"Boolean create: t withValue: true;", none),
  (b!"Character create: std::numeric withValue: '1';", none),
  (b!"Integer create: uni::i withValue: 42;", none),
  (b!"String create: std::str withValue: \"knuckleball\";", none),
  (b!"Context listNamespaces;", some b!"[std,uni]")] = true := by decide +kernel

/-- `tests/context_test.cpp:51` -/
example : replay start [
  (b!"Context listVariables;", some b!"[]"),
  (b!"Boolean create: t withValue: true;", none),
  (b!"Character create: numeric withValue: '1';", none),
  (b!"Integer create: i withValue: 42;", none),
  (b!"Context listVariables;", some b!"[i,numeric,t]")] = true := by decide +kernel

/-- `tests/context_test.cpp:59` -/
example : replay start [
  (b!"Context listVariablesOfNamespace: std;", some b!"[]"),
  (b!"Boolean create: std::t withValue: true;", none),
  (b!"Character create: numeric withValue: '1';", none),
  (b!"Integer create: std::i withValue: 42;", none),
  (b!"Context listVariablesOfNamespace: std;", some b!"[std::i,std::t]")] = true := by decide +kernel

/-- `tests/context_test.cpp:67` -/
example : replay start [
  (b!"Context deleteVariable: numeric;", some Exc.unexistentVariable.text),
  (b!"Boolean create: t withValue: true;", none),
  (b!"Character create: numeric withValue: '1';", none),
  (b!"Integer create: i withValue: 42;", none),
  (b!"Context deleteVariable: numeric;", some b!"null"),
  (b!"Context listVariables;", some b!"[i,t]")] = true := by decide +kernel

/-- `tests/context_test.cpp:76` -/
example : replay start [
  (b!"Context deleteVariablesOfNamespace: std;", some b!"null"),
  (b!"Boolean create: std::t withValue: true;", none),
  (b!"Character create: numeric withValue: '1';", none),
  (b!"Integer create: std::i withValue: 42;", none),
  (b!"Context deleteVariablesOfNamespace: std;", some b!"null"),
  (b!"Context listVariables;", some b!"[numeric]")] = true := by decide +kernel

/-- `tests/context_test.cpp:85` -/
example : replay start [
  (b!"Context getFloatPrecision;", some b!"3")] = true := by decide +kernel

/-- `tests/context_test.cpp:89` -/
example : replay start [
  (b!"Context setFloatPrecision: 42;", some b!"null"),
  (b!"Context getFloatPrecision;", some b!"42"),
  (b!"Context setFloatPrecision: -42;", some Exc.invalidArgument.text)] = true := by decide +kernel

/-- `tests/context_test.cpp:97` -/
example : replay start [
  (b!"Context getFloatComparisonTolerance;", some b!"0.001")] = true := by decide +kernel

/-- `tests/context_test.cpp:101` -/
example : replay start [
  (b!"Context setFloatComparisonTolerance: 1e-2;", some b!"null"),
  (b!"Context getFloatComparisonTolerance;", some b!"0.010"),
  (b!"Context setFloatComparisonTolerance: -42;", some Exc.invalidArgument.text)] = true := by decide +kernel

/-- `tests/context_test.cpp:111` -/
example : replay start [
  (b!"Boolean create: t withValue: true;", some b!"null"),
  (b!"t get;", some b!"true")] = true := by decide +kernel

/-- `tests/context_test.cpp:116` -/
example : replay start [
  (b!"Boolean createIfNotExists: f withValue: false;", some b!"null"),
  (b!"f get;", some b!"false"),
  (b!"Boolean createIfNotExists: f withValue: true;", some b!"null"),
  (b!"f get;", some b!"false")] = true := by decide +kernel

/-- `tests/context_test.cpp:123` -/
example : replay start [
  (b!"Boolean create: t withValue: true;", some b!"null"),
  (b!"t get;", some b!"true")] = true := by decide +kernel

/-- `tests/context_test.cpp:128` -/
example : replay start [
  (b!"Boolean create: f withValue: false;", some b!"null"),
  (b!"f set: true;", some b!"null"),
  (b!"f get;", some b!"true")] = true := by decide +kernel

/-- `tests/context_test.cpp:134` -/
example : replay start [
  (b!"Boolean create: t withValue: true;", some b!"null"),
  (b!"t isTrue?;", some b!"true"),
  (b!"Boolean create: f withValue: false;", some b!"null"),
  (b!"f isTrue?;", some b!"false")] = true := by decide +kernel

/-- `tests/context_test.cpp:144` -/
example : replay start [
  (b!"Boolean create: t withValue: true;", some b!"null"),
  (b!"t isFalse?;", some b!"false"),
  (b!"Boolean create: f withValue: false;", some b!"null"),
  (b!"f isFalse?;", some b!"true")] = true := by decide +kernel

/-- `tests/context_test.cpp:156` -/
example : replay start [
  (b!"Character create: alphabetic withValue: 'b';", some b!"null"),
  (b!"alphabetic get;", some b!"'b'")] = true := by decide +kernel

/-- `tests/context_test.cpp:161` -/
example : replay start [
  (b!"Character createIfNotExists: alphabetic withValue: 'b';", some b!"null"),
  (b!"alphabetic get;", some b!"'b'"),
  (b!"Character createIfNotExists: alphabetic withValue: 'a';", some b!"null"),
  (b!"alphabetic get;", some b!"'b'")] = true := by decide +kernel

/-- `tests/context_test.cpp:168` -/
example : replay start [
  (b!"Character create: alphabetic withValue: 'b';", some b!"null"),
  (b!"alphabetic get;", some b!"'b'")] = true := by decide +kernel

/-- `tests/context_test.cpp:173` -/
example : replay start [
  (b!"Character create: alphabetic withValue: 'b';", some b!"null"),
  (b!"alphabetic set: 'a';", some b!"null"),
  (b!"alphabetic get;", some b!"'a'")] = true := by decide +kernel

/-- `tests/context_test.cpp:179` -/
example : replay start [
  (b!"Character create: alphabetic withValue: 'b';", some b!"null"),
  (b!"alphabetic isAlphabetic?;", some b!"true"),
  (b!"Character create: numeric withValue: '1';", some b!"null"),
  (b!"numeric isAlphabetic?;", some b!"false"),
  (b!"Character create: space withValue: ' ';", some b!"null"),
  (b!"space isAlphabetic?;", some b!"false")] = true := by decide +kernel

/-- `tests/context_test.cpp:193` -/
example : replay start [
  (b!"Character create: alphabetic withValue: 'b';", some b!"null"),
  (b!"alphabetic isNumeric?;", some b!"false"),
  (b!"Character create: numeric withValue: '1';", some b!"null"),
  (b!"numeric isNumeric?;", some b!"true"),
  (b!"Character create: space withValue: ' ';", some b!"null"),
  (b!"space isNumeric?;", some b!"false")] = true := by decide +kernel

/-- `tests/context_test.cpp:207` -/
example : replay start [
  (b!"Character create: alphabetic withValue: 'b';", some b!"null"),
  (b!"alphabetic isAlphanumeric?;", some b!"true"),
  (b!"Character create: numeric withValue: '1';", some b!"null"),
  (b!"numeric isAlphanumeric?;", some b!"true"),
  (b!"Character create: space withValue: ' ';", some b!"null"),
  (b!"space isAlphanumeric?;", some b!"false")] = true := by decide +kernel

/-- `tests/context_test.cpp:221` -/
example : replay start [
  (b!"Character create: alphabetic withValue: 'b';", some b!"null"),
  (b!"alphabetic isSpace?;", some b!"false"),
  (b!"Character create: numeric withValue: '1';", some b!"null"),
  (b!"numeric isSpace?;", some b!"false"),
  (b!"Character create: space withValue: ' ';", some b!"null"),
  (b!"space isSpace?;", some b!"true")] = true := by decide +kernel

/-- `tests/context_test.cpp:235` -/
example : replay start [
  (b!"Character create: alphabetic withValue: 'b';", some b!"null"),
  (b!"alphabetic isEqualTo? 'b';", some b!"true"),
  (b!"alphabetic isEqualTo? 'a';", some b!"false")] = true := by decide +kernel

/-- `tests/context_test.cpp:241` -/
example : replay start [
  (b!"Character create: numeric withValue: '1';", some b!"null"),
  (b!"numeric isLessThan? '2';", some b!"true"),
  (b!"numeric isLessThan? '1';", some b!"false")] = true := by decide +kernel

/-- `tests/context_test.cpp:247` -/
example : replay start [
  (b!"Character create: numeric withValue: '1';", some b!"null"),
  (b!"numeric isLessThanOrEqualTo? '1';", some b!"true"),
  (b!"numeric isLessThanOrEqualTo? '0';", some b!"false")] = true := by decide +kernel

/-- `tests/context_test.cpp:253` -/
example : replay start [
  (b!"Character create: numeric withValue: '1';", some b!"null"),
  (b!"numeric isGreaterThan? '0';", some b!"true"),
  (b!"numeric isGreaterThan? '1';", some b!"false")] = true := by decide +kernel

/-- `tests/context_test.cpp:259` -/
example : replay start [
  (b!"Character create: numeric withValue: '1';", some b!"null"),
  (b!"numeric isGreaterThanOrEqualTo? '1';", some b!"true"),
  (b!"numeric isGreaterThanOrEqualTo? '2';", some b!"false")] = true := by decide +kernel

/-- `tests/context_test.cpp:267` -/
example : replay start [
  (b!"Integer create: i withValue: 42;", some b!"null"),
  (b!"i get;", some b!"42"),
  (b!"Integer create: f withValue: 42.9;", some b!"null"),
  (b!"f get;", some b!"42")] = true := by decide +kernel

/-- `tests/context_test.cpp:277` -/
example : replay start [
  (b!"Integer createIfNotExists: i withValue: 42;", some b!"null"),
  (b!"i get;", some b!"42"),
  (b!"Integer createIfNotExists: i withValue: 43;", some b!"null"),
  (b!"i get;", some b!"42"),
  (b!"Integer createIfNotExists: f withValue: 42.9;", some b!"null"),
  (b!"f get;", some b!"42"),
  (b!"Integer createIfNotExists: f withValue: 43.9;", some b!"null"),
  (b!"f get;", some b!"42")] = true := by decide +kernel

/-- `tests/context_test.cpp:291` -/
example : replay start [
  (b!"Integer create: i withValue: 42;", some b!"null"),
  (b!"i get;", some b!"42")] = true := by decide +kernel

/-- `tests/context_test.cpp:296` -/
example : replay start [
  (b!"Integer create: i withValue: 42;", some b!"null"),
  (b!"i set: 43;", some b!"null"),
  (b!"i get;", some b!"43"),
  (b!"Integer create: f withValue: 42;", some b!"null"),
  (b!"f set: 43.9;", some b!"null"),
  (b!"f get;", some b!"43")] = true := by decide +kernel

/-- `tests/context_test.cpp:308` -/
example : replay start [
  (b!"Integer create: i withValue: 42;", some b!"null"),
  (b!"i isEqualTo? 42;", some b!"true"),
  (b!"i isEqualTo? 42.0;", some b!"true"),
  (b!"i isEqualTo? 43;", some b!"false"),
  (b!"i isEqualTo? 42.1;", some b!"false")] = true := by decide +kernel

/-- `tests/context_test.cpp:316` -/
example : replay start [
  (b!"Integer create: i withValue: 42;", some b!"null"),
  (b!"i isLessThan? 43;", some b!"true"),
  (b!"i isLessThan? 42.1;", some b!"true"),
  (b!"i isLessThan? 42;", some b!"false"),
  (b!"i isLessThan? 42.0;", some b!"false")] = true := by decide +kernel

/-- `tests/context_test.cpp:324` -/
example : replay start [
  (b!"Integer create: i withValue: 42;", some b!"null"),
  (b!"i isLessThanOrEqualTo? 42;", some b!"true"),
  (b!"i isLessThanOrEqualTo? 42.0;", some b!"true"),
  (b!"i isLessThanOrEqualTo? 41;", some b!"false"),
  (b!"i isLessThanOrEqualTo? 41.9;", some b!"false")] = true := by decide +kernel

/-- `tests/context_test.cpp:332` -/
example : replay start [
  (b!"Integer create: i withValue: 42;", some b!"null"),
  (b!"i isGreaterThan? 41;", some b!"true"),
  (b!"i isGreaterThan? 41.9;", some b!"true"),
  (b!"i isGreaterThan? 42;", some b!"false"),
  (b!"i isGreaterThan? 42.0;", some b!"false")] = true := by decide +kernel

/-- `tests/context_test.cpp:340` -/
example : replay start [
  (b!"Integer create: i withValue: 42;", some b!"null"),
  (b!"i isGreaterThanOrEqualTo? 42;", some b!"true"),
  (b!"i isGreaterThanOrEqualTo? 42.0;", some b!"true"),
  (b!"i isGreaterThanOrEqualTo? 43;", some b!"false"),
  (b!"i isGreaterThanOrEqualTo? 42.1;", some b!"false")] = true := by decide +kernel

/-- `tests/context_test.cpp:348` -/
example : replay start [
  (b!"Integer create: i withValue: 42;", some b!"null"),
  (b!"i add: 42;", some b!"null"),
  (b!"i get;", some b!"84"),
  (b!"i add: -42.5;", some b!"null"),
  (b!"i get;", some b!"41")] = true := by decide +kernel

/-- `tests/context_test.cpp:356` -/
example : replay start [
  (b!"Integer create: i withValue: 42;", some b!"null"),
  (b!"i subtract: 84;", some b!"null"),
  (b!"i get;", some b!"-42"),
  (b!"i subtract: -84.5;", some b!"null"),
  (b!"i get;", some b!"42")] = true := by decide +kernel

/-- `tests/context_test.cpp:364` -/
example : replay start [
  (b!"Integer create: i withValue: 20;", some b!"null"),
  (b!"i multiplyBy: 2;", some b!"null"),
  (b!"i get;", some b!"40"),
  (b!"i multiplyBy: -2.5;", some b!"null"),
  (b!"i get;", some b!"-100")] = true := by decide +kernel

/-- `tests/context_test.cpp:372` -/
example : replay start [
  (b!"Integer create: i withValue: 100;", some b!"null"),
  (b!"i divideBy: 2.5;", some b!"null"),
  (b!"i get;", some b!"40"),
  (b!"i divideBy: -2;", some b!"null"),
  (b!"i get;", some b!"-20")] = true := by decide +kernel

/-- `tests/context_test.cpp:382` -/
example : replay start [
  (b!"Float create: f withValue: 42.5;", some b!"null"),
  (b!"f get;", some b!"42.500")] = true := by decide +kernel

/-- `tests/context_test.cpp:387` -/
example : replay start [
  (b!"Float createIfNotExists: f withValue: 42.5;", some b!"null"),
  (b!"f get;", some b!"42.500"),
  (b!"Float createIfNotExists: f withValue: 43.5;", some b!"null"),
  (b!"f get;", some b!"42.500")] = true := by decide +kernel

/-- `tests/context_test.cpp:394` -/
example : replay start [
  (b!"Float create: f withValue: 42.5;", some b!"null"),
  (b!"f get;", some b!"42.500")] = true := by decide +kernel

/-- `tests/context_test.cpp:399` -/
example : replay start [
  (b!"Float create: f withValue: 42.5;", some b!"null"),
  (b!"f set: 43.5;", some b!"null"),
  (b!"f get;", some b!"43.500")] = true := by decide +kernel

/-- `tests/context_test.cpp:405` -/
example : replay start [
  (b!"Float create: f withValue: 42.5;", some b!"null"),
  (b!"f isEqualTo? 42.5;", some b!"true"),
  (b!"f isEqualTo? 42.0;", some b!"false")] = true := by decide +kernel

/-- `tests/context_test.cpp:411` -/
example : replay start [
  (b!"Float create: f withValue: 42.5;", some b!"null"),
  (b!"f isLessThan? 43.0;", some b!"true"),
  (b!"f isLessThan? 42.5;", some b!"false")] = true := by decide +kernel

/-- `tests/context_test.cpp:417` -/
example : replay start [
  (b!"Float create: f withValue: 42.5;", some b!"null"),
  (b!"f isLessThanOrEqualTo? 42.5;", some b!"true"),
  (b!"f isLessThanOrEqualTo? 42.0;", some b!"false")] = true := by decide +kernel

/-- `tests/context_test.cpp:423` -/
example : replay start [
  (b!"Float create: f withValue: 42.5;", some b!"null"),
  (b!"f isGreaterThan? 42.0;", some b!"true"),
  (b!"f isGreaterThan? 42.5;", some b!"false")] = true := by decide +kernel

/-- `tests/context_test.cpp:429` -/
example : replay start [
  (b!"Float create: f withValue: 42.5;", some b!"null"),
  (b!"f isGreaterThanOrEqualTo? 42.5;", some b!"true"),
  (b!"f isGreaterThanOrEqualTo? 43.0;", some b!"false")] = true := by decide +kernel

/-- `tests/context_test.cpp:435` -/
example : replay start [
  (b!"Float create: f withValue: 42.5;", some b!"null"),
  (b!"f add: .5;", some b!"null"),
  (b!"f get;", some b!"43.000")] = true := by decide +kernel

/-- `tests/context_test.cpp:441` -/
example : replay start [
  (b!"Float create: f withValue: 42.5;", some b!"null"),
  (b!"f subtract: .5;", some b!"null"),
  (b!"f get;", some b!"42.000")] = true := by decide +kernel

/-- `tests/context_test.cpp:447` -/
example : replay start [
  (b!"Float create: f withValue: 42.5;", some b!"null"),
  (b!"f multiplyBy: 2;", some b!"null"),
  (b!"f get;", some b!"85.000")] = true := by decide +kernel

/-- `tests/context_test.cpp:453` -/
example : replay start [
  (b!"Float create: f withValue: 85;", some b!"null"),
  (b!"f divideBy: 2;", some b!"null"),
  (b!"f get;", some b!"42.500")] = true := by decide +kernel

/-- `tests/context_test.cpp:461` -/
example : replay start [
  (b!"String create: str;", some b!"null"),
  (b!"str get;", some b!"\"\"")] = true := by decide +kernel

/-- `tests/context_test.cpp:466` -/
example : replay start [
  (b!"String createIfNotExists: str;", some b!"null"),
  (b!"str get;", some b!"\"\""),
  (b!"String createIfNotExists: str;", some b!"null"),
  (b!"str get;", some b!"\"\"")] = true := by decide +kernel

/-- `tests/context_test.cpp:473` -/
example : replay start [
  (b!"String create: str withValue: \"knuckleball\";", some b!"null"),
  (b!"str get;", some b!"\"knuckleball\"")] = true := by decide +kernel

/-- `tests/context_test.cpp:478` -/
example : replay start [
  (b!"String createIfNotExists: str withValue: \"knuckleball\";", some b!"null"),
  (b!"str get;", some b!"\"knuckleball\""),
  (b!"String createIfNotExists: str withValue: \"\";", some b!"null"),
  (b!"str get;", some b!"\"knuckleball\"")] = true := by decide +kernel

/-- `tests/context_test.cpp:485` -/
example : replay start [
  (b!"String create: str withValue: \"knuckleball\";", some b!"null"),
  (b!"str get;", some b!"\"knuckleball\"")] = true := by decide +kernel

/-- `tests/context_test.cpp:490` -/
example : replay start [
  (b!"String create: str withValue: \"knuckleball\";", some b!"null"),
  (b!"str set: \"\";", some b!"null"),
  (b!"str get;", some b!"\"\"")] = true := by decide +kernel

/-- `tests/context_test.cpp:496` -/
example : replay start [
  (b!"String create: empty_str;", some b!"null"),
  (b!"empty_str isEmpty?;", some b!"true"),
  (b!"String create: non_empty_str withValue: \"knuckleball\";", some b!"null"),
  (b!"non_empty_str isEmpty?;", some b!"false")] = true := by decide +kernel

/-- `tests/context_test.cpp:506` -/
example : replay start [
  (b!"String create: str withValue: \"knuckleball\";", some b!"null"),
  (b!"str startsWith? \"\";", some b!"true"),
  (b!"str startsWith? \"knuckle\";", some b!"true"),
  (b!"str startsWith? \"knuckleball\";", some b!"true"),
  (b!"str startsWith? \"ball\";", some b!"false")] = true := by decide +kernel

/-- `tests/context_test.cpp:514` -/
example : replay start [
  (b!"String create: str withValue: \"knuckleball\";", some b!"null"),
  (b!"str endsWith? \"\";", some b!"true"),
  (b!"str endsWith? \"ball\";", some b!"true"),
  (b!"str endsWith? \"knuckleball\";", some b!"true"),
  (b!"str endsWith? \"knuckle\";", some b!"false")] = true := by decide +kernel

/-- `tests/context_test.cpp:522` -/
example : replay start [
  (b!"String create: str withValue: \"knuckleball\";", some b!"null"),
  (b!"str isLexicographicallyEqualTo? \"knuckleball\";", some b!"true"),
  (b!"str isLexicographicallyEqualTo? \"\";", some b!"false")] = true := by decide +kernel

/-- `tests/context_test.cpp:528` -/
example : replay start [
  (b!"String create: str withValue: \"knuckleball\";", some b!"null"),
  (b!"str isLexicographicallyLessThan? \"zball\";", some b!"true"),
  (b!"str isLexicographicallyLessThan? \"knuckleball\";", some b!"false")] = true := by decide +kernel

/-- `tests/context_test.cpp:534` -/
example : replay start [
  (b!"String create: str withValue: \"knuckleball\";", some b!"null"),
  (b!"str isLexicographicallyLessThanOrEqualTo? \"knuckleball\";", some b!"true"),
  (b!"str isLexicographicallyLessThanOrEqualTo? \"\";", some b!"false")] = true := by decide +kernel

/-- `tests/context_test.cpp:540` -/
example : replay start [
  (b!"String create: str withValue: \"knuckleball\";", some b!"null"),
  (b!"str isLexicographicallyGreaterThan? \"\";", some b!"true"),
  (b!"str isLexicographicallyGreaterThan? \"knuckleball\";", some b!"false")] = true := by decide +kernel

/-- `tests/context_test.cpp:546` -/
example : replay start [
  (b!"String create: str withValue: \"knuckleball\";", some b!"null"),
  (b!"str isLexicographicallyGreaterThanOrEqualTo? \"knuckleball\";", some b!"true"),
  (b!"str isLexicographicallyGreaterThanOrEqualTo? \"zball\";", some b!"false")] = true := by decide +kernel

/-- `tests/context_test.cpp:552` -/
example : replay start [
  (b!"String create: empty_str withValue: \"\";", some b!"null"),
  (b!"empty_str length;", some b!"0"),
  (b!"String create: non_empty_str withValue: \"knuckleball\";", some b!"null"),
  (b!"non_empty_str length;", some b!"11")] = true := by decide +kernel

/-- `tests/context_test.cpp:562` -/
example : replay start [
  (b!"String create: str withValue: \"knuckleball\";", some b!"null"),
  (b!"str atIndex: 0;", some b!"'k'"),
  (b!"str atIndex: 1;", some b!"'n'"),
  (b!"str atIndex: 2;", some b!"'u'"),
  (b!"str atIndex: -1;", some Exc.invalidArgument.text),
  (b!"str atIndex: 42;", some Exc.invalidArgument.text)] = true := by decide +kernel

/-- `tests/context_test.cpp:573` -/
example : replay start [
  (b!"String create: str withValue: \"knuckleball\";", some b!"null"),
  (b!"str first: 0;", some b!"\"\""),
  (b!"str first: 7;", some b!"\"knuckle\""),
  (b!"str first: 42;", some b!"\"knuckleball\""),
  (b!"str first: -1;", some Exc.invalidArgument.text)] = true := by decide +kernel

/-- `tests/context_test.cpp:583` -/
example : replay start [
  (b!"String create: str withValue: \"knuckleball\";", some b!"null"),
  (b!"str last: 0;", some b!"\"\""),
  (b!"str last: 4;", some b!"\"ball\""),
  (b!"str last: 42;", some b!"\"knuckleball\""),
  (b!"str last: -1;", some Exc.invalidArgument.text)] = true := by decide +kernel

/-- `tests/context_test.cpp:593` -/
example : replay start [
  (b!"String create: str withValue: \"knuckleball\";", some b!"null"),
  (b!"str substringFromIndex: 0;", some b!"\"knuckleball\""),
  (b!"str substringFromIndex: 7;", some b!"\"ball\""),
  (b!"str substringFromIndex: 11;", some b!"\"\""),
  (b!"str substringFromIndex: -1;", some Exc.invalidArgument.text),
  (b!"str substringFromIndex: 12;", some Exc.invalidArgument.text)] = true := by decide +kernel

/-- `tests/context_test.cpp:604` -/
example : replay start [
  (b!"String create: str withValue: \"knuckleball\";", some b!"null"),
  (b!"str substringFromIndex: 0 toIndex: 0;", some b!"\"\""),
  (b!"str substringFromIndex: 0 toIndex: 7;", some b!"\"knuckle\""),
  (b!"str substringFromIndex: 0 toIndex: 11;", some b!"\"knuckleball\""),
  (b!"str substringFromIndex: 4 toIndex: 2;", some Exc.invalidArgument.text),
  (b!"str substringFromIndex: -1 toIndex: 2;", some Exc.invalidArgument.text)] = true := by decide +kernel

/-- `tests/context_test.cpp:615` -/
example : replay start [
  (b!"String create: str withValue: \"knucklebal\";", some b!"null"),
  (b!"str pushBack: 'l';", some b!"null"),
  (b!"str get;", some b!"\"knuckleball\"")] = true := by decide +kernel

/-- `tests/context_test.cpp:621` -/
example : replay start [
  (b!"String create: str withValue: \"nuckleball\";", some b!"null"),
  (b!"str pushFront: 'k';", some b!"null"),
  (b!"str get;", some b!"\"knuckleball\"")] = true := by decide +kernel

/-- `tests/context_test.cpp:627` -/
example : replay start [
  (b!"String create: str withValue: \"knu\";", some b!"null"),
  (b!"str popBack;", some b!"'u'"),
  (b!"str popBack;", some b!"'n'"),
  (b!"str popBack;", some b!"'k'"),
  (b!"str get;", some b!"\"\""),
  (b!"str popBack;", some b!"null")] = true := by decide +kernel

/-- `tests/context_test.cpp:636` -/
example : replay start [
  (b!"String create: str withValue: \"knu\";", some b!"null"),
  (b!"str popFront;", some b!"'k'"),
  (b!"str popFront;", some b!"'n'"),
  (b!"str popFront;", some b!"'u'"),
  (b!"str get;", some b!"\"\""),
  (b!"str popFront;", some b!"null")] = true := by decide +kernel

/-- `tests/context_test.cpp:645` -/
example : replay start [
  (b!"String create: str withValue: \"knuckleball\";", some b!"null"),
  (b!"str popAtIndex: 0;", some b!"'k'"),
  (b!"str popAtIndex: 6;", some b!"'b'"),
  (b!"str get;", some b!"\"nuckleall\""),
  (b!"str popAtIndex: -1;", some Exc.invalidArgument.text),
  (b!"str popAtIndex: 9;", some Exc.invalidArgument.text)] = true := by decide +kernel

/-- `tests/context_test.cpp:656` -/
example : replay start [
  (b!"String create: str withValue: \"knuckle\";", some b!"null"),
  (b!"str concatenate: \"ball\";", some b!"null"),
  (b!"str get;", some b!"\"knuckleball\"")] = true := by decide +kernel

/-- `tests/context_test.cpp:662` -/
example : replay start [
  (b!"String create: str withValue: \"bal\";", some b!"null"),
  (b!"str insert: \"l\" beforeIndex: 3;", some b!"null"),
  (b!"str get;", some b!"\"ball\""),
  (b!"str insert: \"knuckle\" beforeIndex: 0;", some b!"null"),
  (b!"str get;", some b!"\"knuckleball\""),
  (b!"str insert: \" \" beforeIndex: 7;", some b!"null"),
  (b!"str get;", some b!"\"knuckle ball\""),
  (b!"str insert: \" \" beforeIndex: -1;", some Exc.invalidArgument.text),
  (b!"str insert: \" \" beforeIndex: 13;", some Exc.invalidArgument.text)] = true := by decide +kernel

/-- `tests/context_test.cpp:676` -/
example : replay start [
  (b!"String create: str withValue: \"knuckleball\";", some b!"null"),
  (b!"str eraseFromIndex: 7;", some b!"null"),
  (b!"str get;", some b!"\"knuckle\""),
  (b!"str eraseFromIndex: 8;", some Exc.invalidArgument.text),
  (b!"str eraseFromIndex: -1;", some Exc.invalidArgument.text)] = true := by decide +kernel

/-- `tests/context_test.cpp:686` -/
example : replay start [
  (b!"String create: str withValue: \"knuckle ball\";", some b!"null"),
  (b!"str eraseFromIndex: 7 toIndex: 8;", some b!"null"),
  (b!"str get;", some b!"\"knuckleball\""),
  (b!"str eraseFromIndex: 4 toIndex: 2;", some Exc.invalidArgument.text),
  (b!"str eraseFromIndex: 4 toIndex: 12;", some Exc.invalidArgument.text),
  (b!"str eraseFromIndex: -1 toIndex: 0;", some Exc.invalidArgument.text)] = true := by decide +kernel

/-- `tests/context_test.cpp:697` -/
example : replay start [
  (b!"String create: str withValue: \"knuckleball\";", some b!"null"),
  (b!"str clear;", some b!"null"),
  (b!"str get;", some b!"\"\"")] = true := by decide +kernel

/-- `tests/context_test.cpp:705` -/
example : replay start [
  (b!"Vector<Integer> create: prices;", some b!"null"),
  (b!"prices get;", some b!"[]")] = true := by decide +kernel

/-- `tests/context_test.cpp:710` -/
example : replay start [
  (b!"Vector<Integer> createIfNotExists: prices;", some b!"null"),
  (b!"prices get;", some b!"[]"),
  (b!"Vector<Integer> createIfNotExists: prices;", some b!"null"),
  (b!"prices get;", some b!"[]")] = true := by decide +kernel

/-- `tests/context_test.cpp:717` -/
example : replay start [
  (b!"Vector<Integer> create: prices;", some b!"null"),
  (b!"prices get;", some b!"[]")] = true := by decide +kernel

/-- `tests/context_test.cpp:722` -/
example : replay start [
  (b!"Vector<Integer> create: prices;", some b!"null"),
  (b!"prices isEmpty?;", some b!"true"),
  (b!"prices pushBack: 42;", some b!"null"),
  (b!"prices isEmpty?;", some b!"false")] = true := by decide +kernel

/-- `tests/context_test.cpp:729` -/
example : replay start [
  (b!"Vector<Integer> create: prices;", some b!"null"),
  (b!"prices contains? 42;", some b!"false"),
  (b!"prices pushBack: 42;", some b!"null"),
  (b!"prices contains? 42;", some b!"true")] = true := by decide +kernel

/-- `tests/context_test.cpp:736` -/
example : replay start [
  (b!"Vector<Integer> create: prices;", some b!"null"),
  (b!"prices contains? 42 fromIndex: 0;", some b!"false"),
  (b!"prices pushBack: 42;", some b!"null"),
  (b!"prices contains? 42 fromIndex: 0;", some b!"true"),
  (b!"prices pushBack: 21;", some b!"null"),
  (b!"prices contains? 42 fromIndex: 1;", some b!"false"),
  (b!"prices contains? 42 fromIndex: 3;", some Exc.invalidArgument.text),
  (b!"prices contains? 42 fromIndex: -1;", some Exc.invalidArgument.text)] = true := by decide +kernel

/-- `tests/context_test.cpp:749` -/
example : replay start [
  (b!"Vector<Integer> create: prices;", some b!"null"),
  (b!"prices pushBack: 42;", some b!"null"),
  (b!"prices pushBack: 42;", some b!"null"),
  (b!"prices pushBack: 21;", some b!"null"),
  (b!"prices count: 63;", some b!"0"),
  (b!"prices count: 21;", some b!"1"),
  (b!"prices count: 42;", some b!"2")] = true := by decide +kernel

/-- `tests/context_test.cpp:759` -/
example : replay start [
  (b!"Vector<Integer> create: prices;", some b!"null"),
  (b!"prices pushBack: 21;", some b!"null"),
  (b!"prices pushBack: 42;", some b!"null"),
  (b!"prices pushBack: 63;", some b!"null"),
  (b!"prices atIndex: 0;", some b!"21"),
  (b!"prices atIndex: 1;", some b!"42"),
  (b!"prices atIndex: 2;", some b!"63"),
  (b!"prices atIndex: -1;", some Exc.invalidArgument.text),
  (b!"prices atIndex: 42;", some Exc.invalidArgument.text)] = true := by decide +kernel

/-- `tests/context_test.cpp:773` -/
example : replay start [
  (b!"Vector<Integer> create: prices;", some b!"null"),
  (b!"prices pushBack: 42;", some b!"null"),
  (b!"prices pushBack: 21;", some b!"null"),
  (b!"prices pushBack: 42;", some b!"null"),
  (b!"prices firstIndexOf: 42;", some b!"0"),
  (b!"prices firstIndexOf: 21;", some b!"1"),
  (b!"prices firstIndexOf: 63;", some b!"-1")] = true := by decide +kernel

/-- `tests/context_test.cpp:783` -/
example : replay start [
  (b!"Vector<Integer> create: prices;", some b!"null"),
  (b!"prices pushBack: 42;", some b!"null"),
  (b!"prices pushBack: 21;", some b!"null"),
  (b!"prices pushBack: 42;", some b!"null"),
  (b!"prices firstIndexOf: 42 fromIndex: 0;", some b!"0"),
  (b!"prices firstIndexOf: 42 fromIndex: 1;", some b!"2"),
  (b!"prices firstIndexOf: 42 fromIndex: 3;", some b!"-1"),
  (b!"prices firstIndexOf: 63 fromIndex: 0;", some b!"-1"),
  (b!"prices firstIndexOf: 42 fromIndex: -1;", some Exc.invalidArgument.text),
  (b!"prices firstIndexOf: 42 fromIndex: 42;", some Exc.invalidArgument.text)] = true := by decide +kernel

/-- `tests/context_test.cpp:798` -/
example : replay start [
  (b!"Vector<Integer> create: prices;", some b!"null"),
  (b!"prices pushBack: 42;", some b!"null"),
  (b!"prices pushBack: 21;", some b!"null"),
  (b!"prices pushBack: 42;", some b!"null"),
  (b!"prices allIndexesOf: 63;", some b!"[]"),
  (b!"prices allIndexesOf: 21;", some b!"[1]"),
  (b!"prices allIndexesOf: 42;", some b!"[0,2]")] = true := by decide +kernel

/-- `tests/context_test.cpp:808` -/
example : replay start [
  (b!"Vector<Integer> create: prices;", some b!"null"),
  (b!"prices size;", some b!"0"),
  (b!"prices pushBack: 42;", some b!"null"),
  (b!"prices pushBack: 21;", some b!"null"),
  (b!"prices pushBack: 42;", some b!"null"),
  (b!"prices size;", some b!"3")] = true := by decide +kernel

/-- `tests/context_test.cpp:817` -/
example : replay start [
  (b!"Vector<Integer> create: prices;", some b!"null"),
  (b!"prices pushBack: 42;", some b!"null"),
  (b!"prices pushBack: 21;", some b!"null"),
  (b!"prices pushBack: 63;", some b!"null"),
  (b!"prices first: 0;", some b!"[]"),
  (b!"prices first: 1;", some b!"[42]"),
  (b!"prices first: 2;", some b!"[42,21]"),
  (b!"prices first: 3;", some b!"[42,21,63]"),
  (b!"prices first: 4;", some b!"[42,21,63]"),
  (b!"prices first: -1;", some Exc.invalidArgument.text)] = true := by decide +kernel

/-- `tests/context_test.cpp:832` -/
example : replay start [
  (b!"Vector<Integer> create: prices;", some b!"null"),
  (b!"prices pushBack: 42;", some b!"null"),
  (b!"prices pushBack: 21;", some b!"null"),
  (b!"prices pushBack: 63;", some b!"null"),
  (b!"prices last: 0;", some b!"[]"),
  (b!"prices last: 1;", some b!"[63]"),
  (b!"prices last: 2;", some b!"[21,63]"),
  (b!"prices last: 3;", some b!"[42,21,63]"),
  (b!"prices last: 4;", some b!"[42,21,63]"),
  (b!"prices last: -1;", some Exc.invalidArgument.text)] = true := by decide +kernel

/-- `tests/context_test.cpp:847` -/
example : replay start [
  (b!"Vector<Integer> create: prices;", some b!"null"),
  (b!"prices pushBack: 1;", some b!"null"),
  (b!"prices pushBack: 2;", some b!"null"),
  (b!"prices pushBack: 3;", some b!"null"),
  (b!"prices pushBack: 4;", some b!"null"),
  (b!"prices pushBack: 5;", some b!"null"),
  (b!"prices sliceFromIndex: 0;", some b!"[1,2,3,4,5]"),
  (b!"prices sliceFromIndex: 1;", some b!"[2,3,4,5]"),
  (b!"prices sliceFromIndex: 4;", some b!"[5]"),
  (b!"prices sliceFromIndex: 5;", some b!"[]"),
  (b!"prices sliceFromIndex: -1;", some Exc.invalidArgument.text),
  (b!"prices sliceFromIndex: 42;", some Exc.invalidArgument.text)] = true := by decide +kernel

/-- `tests/context_test.cpp:864` -/
example : replay start [
  (b!"Vector<Integer> create: prices;", some b!"null"),
  (b!"prices pushBack: 1;", some b!"null"),
  (b!"prices pushBack: 2;", some b!"null"),
  (b!"prices pushBack: 3;", some b!"null"),
  (b!"prices pushBack: 4;", some b!"null"),
  (b!"prices pushBack: 5;", some b!"null"),
  (b!"prices sliceFromIndex: 0 toIndex: 0;", some b!"[]"),
  (b!"prices sliceFromIndex: 0 toIndex: 1;", some b!"[1]"),
  (b!"prices sliceFromIndex: 0 toIndex: 5;", some b!"[1,2,3,4,5]"),
  (b!"prices sliceFromIndex: 1 toIndex: 3;", some b!"[2,3]"),
  (b!"prices sliceFromIndex: 4 toIndex: 2;", some Exc.invalidArgument.text),
  (b!"prices sliceFromIndex: -1 toIndex: 3;", some Exc.invalidArgument.text),
  (b!"prices sliceFromIndex: 0 toIndex: 42;", some Exc.invalidArgument.text)] = true := by decide +kernel

/-- `tests/context_test.cpp:882` -/
example : replay start [
  (b!"Vector<Integer> create: prices;", some b!"null"),
  (b!"prices pushBack: 42;", some b!"null"),
  (b!"prices get;", some b!"[42]"),
  (b!"prices pushBack: 21;", some b!"null"),
  (b!"prices get;", some b!"[42,21]")] = true := by decide +kernel

/-- `tests/context_test.cpp:890` -/
example : replay start [
  (b!"Vector<Integer> create: prices;", some b!"null"),
  (b!"prices pushFront: 42;", some b!"null"),
  (b!"prices get;", some b!"[42]"),
  (b!"prices pushFront: 21;", some b!"null"),
  (b!"prices get;", some b!"[21,42]")] = true := by decide +kernel

/-- `tests/context_test.cpp:898` -/
example : replay start [
  (b!"Vector<Integer> create: prices;", some b!"null"),
  (b!"prices pushBack: 21;", some b!"null"),
  (b!"prices pushBack: 42;", some b!"null"),
  (b!"prices pushBack: 63;", some b!"null"),
  (b!"prices popBack;", some b!"63"),
  (b!"prices popBack;", some b!"42"),
  (b!"prices popBack;", some b!"21"),
  (b!"prices popBack;", some b!"null")] = true := by decide +kernel

/-- `tests/context_test.cpp:909` -/
example : replay start [
  (b!"Vector<Integer> create: prices;", some b!"null"),
  (b!"prices pushBack: 21;", some b!"null"),
  (b!"prices pushBack: 42;", some b!"null"),
  (b!"prices pushBack: 63;", some b!"null"),
  (b!"prices popFront;", some b!"21"),
  (b!"prices popFront;", some b!"42"),
  (b!"prices popFront;", some b!"63"),
  (b!"prices popFront;", some b!"null")] = true := by decide +kernel

/-- `tests/context_test.cpp:920` -/
example : replay start [
  (b!"Vector<Integer> create: prices;", some b!"null"),
  (b!"prices pushBack: 1;", some b!"null"),
  (b!"prices pushBack: 2;", some b!"null"),
  (b!"prices pushBack: 3;", some b!"null"),
  (b!"prices pushBack: 4;", some b!"null"),
  (b!"prices pushBack: 5;", some b!"null"),
  (b!"prices popAtIndex: 0;", some b!"1"),
  (b!"prices popAtIndex: 3;", some b!"5"),
  (b!"prices get;", some b!"[2,3,4]"),
  (b!"prices popAtIndex: -1;", some Exc.invalidArgument.text),
  (b!"prices popAtIndex: 3;", some Exc.invalidArgument.text)] = true := by decide +kernel

/-- `tests/context_test.cpp:936` -/
example : replay start [
  (b!"Vector<Integer> create: prices;", some b!"null"),
  (b!"prices insert: 42 beforeIndex: 0;", some b!"null"),
  (b!"prices insert: 21 beforeIndex: 0;", some b!"null"),
  (b!"prices insert: 63 beforeIndex: 2;", some b!"null"),
  (b!"prices insert: 22 beforeIndex: 1;", some b!"null"),
  (b!"prices get;", some b!"[21,22,42,63]"),
  (b!"prices insert: 42 beforeIndex: -1;", some Exc.invalidArgument.text),
  (b!"prices insert: 42 beforeIndex: 42;", some Exc.invalidArgument.text)] = true := by decide +kernel

/-- `tests/context_test.cpp:949` -/
example : replay start [
  (b!"Vector<Integer> create: prices;", some b!"null"),
  (b!"prices pushBack: 1;", some b!"null"),
  (b!"prices pushBack: 2;", some b!"null"),
  (b!"prices pushBack: 3;", some b!"null"),
  (b!"prices pushBack: 4;", some b!"null"),
  (b!"prices pushBack: 5;", some b!"null"),
  (b!"prices eraseFromIndex: 3;", some b!"null"),
  (b!"prices get;", some b!"[1,2,3]"),
  (b!"prices eraseFromIndex: 0;", some b!"null"),
  (b!"prices get;", some b!"[]"),
  (b!"prices eraseFromIndex: -1;", some Exc.invalidArgument.text),
  (b!"prices eraseFromIndex: 42;", some Exc.invalidArgument.text)] = true := by decide +kernel

/-- `tests/context_test.cpp:966` -/
example : replay start [
  (b!"Vector<Integer> create: prices;", some b!"null"),
  (b!"prices pushBack: 1;", some b!"null"),
  (b!"prices pushBack: 2;", some b!"null"),
  (b!"prices pushBack: 3;", some b!"null"),
  (b!"prices pushBack: 4;", some b!"null"),
  (b!"prices pushBack: 5;", some b!"null"),
  (b!"prices eraseFromIndex: 0 toIndex: 3;", some b!"null"),
  (b!"prices get;", some b!"[4,5]"),
  (b!"prices eraseFromIndex: 1 toIndex: 2;", some b!"null"),
  (b!"prices get;", some b!"[4]"),
  (b!"prices eraseFromIndex: 1 toIndex: 0;", some Exc.invalidArgument.text),
  (b!"prices eraseFromIndex: -1 toIndex: 1;", some Exc.invalidArgument.text),
  (b!"prices eraseFromIndex: 0 toIndex: 42;", some Exc.invalidArgument.text)] = true := by decide +kernel

/-- `tests/context_test.cpp:984` -/
example : replay start [
  (b!"Vector<Integer> create: prices;", some b!"null"),
  (b!"prices pushBack: 21;", some b!"null"),
  (b!"prices pushBack: 42;", some b!"null"),
  (b!"prices pushBack: 21;", some b!"null"),
  (b!"prices pushBack: 42;", some b!"null"),
  (b!"prices removeFirst: 42;", some b!"null"),
  (b!"prices get;", some b!"[21,21,42]")] = true := by decide +kernel

/-- `tests/context_test.cpp:994` -/
example : replay start [
  (b!"Vector<Integer> create: prices;", some b!"null"),
  (b!"prices pushBack: 21;", some b!"null"),
  (b!"prices pushBack: 42;", some b!"null"),
  (b!"prices pushBack: 21;", some b!"null"),
  (b!"prices pushBack: 42;", some b!"null"),
  (b!"prices removeFirst: 21 fromIndex: 1;", some b!"null"),
  (b!"prices get;", some b!"[21,42,42]"),
  (b!"prices removeFirst: 42 fromIndex: -1;", some Exc.invalidArgument.text),
  (b!"prices removeFirst: 42 fromIndex: 42;", some Exc.invalidArgument.text)] = true := by decide +kernel

/-- `tests/context_test.cpp:1008` -/
example : replay start [
  (b!"Vector<Integer> create: prices;", some b!"null"),
  (b!"prices pushBack: 21;", some b!"null"),
  (b!"prices pushBack: 42;", some b!"null"),
  (b!"prices pushBack: 21;", some b!"null"),
  (b!"prices pushBack: 42;", some b!"null"),
  (b!"prices removeAll: 42;", some b!"null"),
  (b!"prices get;", some b!"[21,21]")] = true := by decide +kernel

/-- `tests/context_test.cpp:1018` -/
example : replay start [
  (b!"Vector<Integer> create: prices;", some b!"null"),
  (b!"prices pushBack: 21;", some b!"null"),
  (b!"prices pushBack: 42;", some b!"null"),
  (b!"prices pushBack: 21;", some b!"null"),
  (b!"prices pushBack: 42;", some b!"null"),
  (b!"prices replaceFirst: 42 with: -42;", some b!"null"),
  (b!"prices get;", some b!"[21,-42,21,42]")] = true := by decide +kernel

/-- `tests/context_test.cpp:1028` -/
example : replay start [
  (b!"Vector<Integer> create: prices;", some b!"null"),
  (b!"prices pushBack: 21;", some b!"null"),
  (b!"prices pushBack: 42;", some b!"null"),
  (b!"prices pushBack: 21;", some b!"null"),
  (b!"prices pushBack: 42;", some b!"null"),
  (b!"prices replaceFirst: 42 fromIndex: 2 with: -42;", some b!"null"),
  (b!"prices get;", some b!"[21,42,21,-42]"),
  (b!"prices replaceFirst: 42 fromIndex: -1 with: -42;", some Exc.invalidArgument.text),
  (b!"prices replaceFirst: 42 fromIndex: 42 with: -42;", some Exc.invalidArgument.text)] = true := by decide +kernel

/-- `tests/context_test.cpp:1042` -/
example : replay start [
  (b!"Vector<Integer> create: prices;", some b!"null"),
  (b!"prices pushBack: 21;", some b!"null"),
  (b!"prices pushBack: 42;", some b!"null"),
  (b!"prices pushBack: 21;", some b!"null"),
  (b!"prices pushBack: 42;", some b!"null"),
  (b!"prices replaceAll: 42 with: -42;", some b!"null"),
  (b!"prices get;", some b!"[21,-42,21,-42]")] = true := by decide +kernel

/-- `tests/context_test.cpp:1052` -/
example : replay start [
  (b!"Vector<Integer> create: prices;", some b!"null"),
  (b!"prices pushBack: 3;", some b!"null"),
  (b!"prices pushBack: 2;", some b!"null"),
  (b!"prices pushBack: 5;", some b!"null"),
  (b!"prices pushBack: 1;", some b!"null"),
  (b!"prices pushBack: 4;", some b!"null"),
  (b!"prices sort;", some b!"null"),
  (b!"prices get;", some b!"[1,2,3,4,5]")] = true := by decide +kernel

/-- `tests/context_test.cpp:1063` -/
example : replay start [
  (b!"Vector<Integer> create: prices;", some b!"null"),
  (b!"prices pushBack: 21;", some b!"null"),
  (b!"prices pushBack: 42;", some b!"null"),
  (b!"prices pushBack: 63;", some b!"null"),
  (b!"prices reverse;", some b!"null"),
  (b!"prices get;", some b!"[63,42,21]")] = true := by decide +kernel

/-- `tests/context_test.cpp:1072` -/
example : replay start [
  (b!"Vector<Integer> create: prices;", some b!"null"),
  (b!"prices pushBack: 21;", some b!"null"),
  (b!"prices pushBack: 42;", some b!"null"),
  (b!"prices pushBack: 63;", some b!"null"),
  (b!"prices clear;", some b!"null"),
  (b!"prices get;", some b!"[]")] = true := by decide +kernel

/-- `tests/context_test.cpp:1083` -/
example : replay start [
  (b!"Set<String> create: ids;", some b!"null"),
  (b!"ids get;", some b!"{}")] = true := by decide +kernel

/-- `tests/context_test.cpp:1088` -/
example : replay start [
  (b!"Set<String> createIfNotExists: ids;", some b!"null"),
  (b!"ids get;", some b!"{}"),
  (b!"Set<String> createIfNotExists: ids;", some b!"null"),
  (b!"ids get;", some b!"{}")] = true := by decide +kernel

/-- `tests/context_test.cpp:1095` -/
example : replay start [
  (b!"Set<String> create: ids;", some b!"null"),
  (b!"ids get;", some b!"{}")] = true := by decide +kernel

/-- `tests/context_test.cpp:1100` -/
example : replay start [
  (b!"Set<String> create: ids;", some b!"null"),
  (b!"ids isEmpty?;", some b!"true"),
  (b!"ids add: \"knuckleball\";", some b!"null"),
  (b!"ids isEmpty?;", some b!"false")] = true := by decide +kernel

/-- `tests/context_test.cpp:1107` -/
example : replay start [
  (b!"Set<String> create: ids;", some b!"null"),
  (b!"ids contains? \"knuckleball\";", some b!"false"),
  (b!"ids add: \"knuckleball\";", some b!"null"),
  (b!"ids contains? \"knuckleball\";", some b!"true")] = true := by decide +kernel

/-- `tests/context_test.cpp:1114` -/
example : replay start [
  (b!"Set<String> create: ids;", some b!"null"),
  (b!"ids size;", some b!"0"),
  (b!"ids add: \"1\";", some b!"null"),
  (b!"ids add: \"2\";", some b!"null"),
  (b!"ids add: \"3\";", some b!"null"),
  (b!"ids size;", some b!"3"),
  (b!"ids add: \"1\";", some b!"null"),
  (b!"ids size;", some b!"3")] = true := by decide +kernel

/-- `tests/context_test.cpp:1125` -/
example : replay start [
  (b!"Set<String> create: ids;", some b!"null"),
  (b!"ids add: \"knuckle\";", some b!"null"),
  (b!"ids get;", some b!"{\"knuckle\"}"),
  (b!"ids add: \"ball\";", some b!"null"),
  (b!"ids get;", some b!"{\"ball\",\"knuckle\"}")] = true := by decide +kernel

/-- `tests/context_test.cpp:1133` -/
example : replay start [
  (b!"Set<String> create: ids;", some b!"null"),
  (b!"ids add: \"knuckle\";", some b!"null"),
  (b!"ids add: \"ball\";", some b!"null"),
  (b!"ids remove: \"knuckle\";", some b!"null"),
  (b!"ids get;", some b!"{\"ball\"}")] = true := by decide +kernel

/-- `tests/context_test.cpp:1141` -/
example : replay start [
  (b!"Set<String> create: ids;", some b!"null"),
  (b!"ids add: \"1\";", some b!"null"),
  (b!"ids add: \"2\";", some b!"null"),
  (b!"ids add: \"3\";", some b!"null"),
  (b!"ids clear;", some b!"null"),
  (b!"ids get;", some b!"{}")] = true := by decide +kernel

/-- `tests/context_test.cpp:1152` -/
example : replay start [
  (b!"Dictionary<String, Integer> create: ages;", some b!"null"),
  (b!"ages get;", some b!"()")] = true := by decide +kernel

/-- `tests/context_test.cpp:1157` -/
example : replay start [
  (b!"Dictionary<String, Integer> createIfNotExists: ages;", some b!"null"),
  (b!"ages get;", some b!"()"),
  (b!"Dictionary<String, Integer> createIfNotExists: ages;", some b!"null"),
  (b!"ages get;", some b!"()")] = true := by decide +kernel

/-- `tests/context_test.cpp:1164` -/
example : replay start [
  (b!"Dictionary<String, Integer> create: ages;", some b!"null"),
  (b!"ages get;", some b!"()")] = true := by decide +kernel

/-- `tests/context_test.cpp:1169` -/
example : replay start [
  (b!"Dictionary<String, Integer> create: ages;", some b!"null"),
  (b!"ages isEmpty?;", some b!"true"),
  (b!"ages associateValue: 42 withKey: \"knuckleball\";", some b!"null"),
  (b!"ages isEmpty?;", some b!"false")] = true := by decide +kernel

/-- `tests/context_test.cpp:1176` -/
example : replay start [
  (b!"Dictionary<String, Integer> create: ages;", some b!"null"),
  (b!"ages containsKey? \"knuckleball\";", some b!"false"),
  (b!"ages associateValue: 42 withKey: \"knuckleball\";", some b!"null"),
  (b!"ages containsKey? \"knuckleball\";", some b!"true")] = true := by decide +kernel

/-- `tests/context_test.cpp:1183` -/
example : replay start [
  (b!"Dictionary<String, Integer> create: ages;", some b!"null"),
  (b!"ages size;", some b!"0"),
  (b!"ages associateValue: 21 withKey: \"knuckle\";", some b!"null"),
  (b!"ages associateValue: 42 withKey: \"ball\";", some b!"null"),
  (b!"ages associateValue: 63 withKey: \"knuckleball\";", some b!"null"),
  (b!"ages associateValue: 84 withKey: \"knuckleball\";", some b!"null"),
  (b!"ages size;", some b!"3")] = true := by decide +kernel

/-- `tests/context_test.cpp:1193` -/
example : replay start [
  (b!"Dictionary<String, Integer> create: ages;", some b!"null"),
  (b!"ages associateValue: 21 withKey: \"knuckle\";", some b!"null"),
  (b!"ages associateValue: 42 withKey: \"ball\";", some b!"null"),
  (b!"ages associateValue: 63 withKey: \"knuckleball\";", some b!"null"),
  (b!"ages keys;", some b!"[\"ball\",\"knuckle\",\"knuckleball\"]")] = true := by decide +kernel

/-- `tests/context_test.cpp:1201` -/
example : replay start [
  (b!"Dictionary<String, Integer> create: ages;", some b!"null"),
  (b!"ages associateValue: 21 withKey: \"knuckle\";", some b!"null"),
  (b!"ages associateValue: 42 withKey: \"ball\";", some b!"null"),
  (b!"ages associateValue: 42 withKey: \"knuckleball\";", some b!"null"),
  (b!"ages values;", some b!"[42,21,42]")] = true := by decide +kernel

/-- `tests/context_test.cpp:1209` -/
example : replay start [
  (b!"Dictionary<String, Integer> create: ages;", some b!"null"),
  (b!"ages associateValue: 21 withKey: \"knuckle\";", some b!"null"),
  (b!"ages associateValue: 42 withKey: \"ball\";", some b!"null"),
  (b!"ages associateValue: 42 withKey: \"knuckleball\";", some b!"null"),
  (b!"ages getValueForKey: \"knuckle\";", some b!"21"),
  (b!"ages getValueForKey: \"ball\";", some b!"42"),
  (b!"ages getValueForKey: \"knuckleball\";", some b!"42"),
  (b!"ages getValueForKey: \"\";", some b!"null")] = true := by decide +kernel

/-- `tests/context_test.cpp:1220` -/
example : replay start [
  (b!"Dictionary<String, Integer> create: ages;", some b!"null"),
  (b!"ages associateValue: 42 withKey: \"knuckle\";", some b!"null"),
  (b!"ages get;", some b!"((\"knuckle\",42))"),
  (b!"ages associateValue: 21 withKey: \"ball\";", some b!"null"),
  (b!"ages get;", some b!"((\"ball\",21),(\"knuckle\",42))")] = true := by decide +kernel

/-- `tests/context_test.cpp:1228` -/
example : replay start [
  (b!"Dictionary<String, Integer> create: ages;", some b!"null"),
  (b!"ages associateValue: 21 withKey: \"knuckle\";", some b!"null"),
  (b!"ages associateValue: 42 withKey: \"ball\";", some b!"null"),
  (b!"ages associateValue: 42 withKey: \"knuckleball\";", some b!"null"),
  (b!"ages removeKey: \"knuckleball\";", some b!"null"),
  (b!"ages removeKey: \"42\";", some b!"null"),
  (b!"ages get;", some b!"((\"ball\",42),(\"knuckle\",21))")] = true := by decide +kernel

/-- `tests/context_test.cpp:1238` -/
example : replay start [
  (b!"Dictionary<String, Integer> create: ages;", some b!"null"),
  (b!"ages associateValue: 21 withKey: \"knuckle\";", some b!"null"),
  (b!"ages associateValue: 42 withKey: \"ball\";", some b!"null"),
  (b!"ages associateValue: 63 withKey: \"knuckleball\";", some b!"null"),
  (b!"ages clear;", some b!"null"),
  (b!"ages get;", some b!"()")] = true := by decide +kernel

/-- `tests/context_test.cpp:1249` -/
example : replay start [
  (b!"_prices get;", some Exc.invalidStatement.text),
  (b!"2016prices get;", some Exc.invalidStatement.text),
  (b!"42 get;", some Exc.invalidStatement.text),
  (b!"Vector create: l;", some Exc.invalidStatement.text)] = true := by decide +kernel

/-- `tests/context_test.cpp:1256` -/
example : replay start [
  (b!"Boolean create t withValue true;", some Exc.invalidStatement.text),
  (b!"t set false;", some Exc.invalidStatement.text)] = true := by decide +kernel

/-- `tests/context_test.cpp:1261` -/
example : replay start [
  (b!"Boolean create: _t withValue: true;", some Exc.invalidStatement.text)] = true := by decide +kernel

/-- `tests/context_test.cpp:1265` -/
example : replay start [
  (b!"Boolean create: t withValue: true false;", some Exc.invalidStatement.text)] = true := by decide +kernel

/-- `tests/context_test.cpp:1269` -/
example : replay start [
  (b!"get;", some Exc.invalidStatement.text),
  (b!"create: t withValue: true;", some Exc.invalidStatement.text)] = true := by decide +kernel

/-- `tests/context_test.cpp:1274` -/
example : replay start [
  (b!"t;", some Exc.invalidStatement.text),
  (b!"Boolean;", some Exc.invalidStatement.text)] = true := by decide +kernel

/-- `tests/context_test.cpp:1279` -/
example : replay start [
  (b!"t set: ;", some Exc.invalidStatement.text),
  (b!"Boolean create: t withValue: ;", some Exc.invalidStatement.text),
  (b!"Boolean create: withValue: true;", some Exc.invalidStatement.text)] = true := by decide +kernel

/-- `tests/context_test.cpp:1285` -/
example : replay start [
  (b!"t get", some Exc.invalidStatement.text),
  (b!"Boolean create: t withValue: true", some Exc.invalidStatement.text)] = true := by decide +kernel

/-- `tests/context_test.cpp:1292` -/
example : replay start [
  (b!"t get;", some Exc.unexistentVariable.text),
  (b!"i add: 1;", some Exc.unexistentVariable.text)] = true := by decide +kernel

/-- `tests/context_test.cpp:1297` -/
example : replay start [
  (b!"Boolean create: t;", some Exc.invalidMessage.text),
  (b!"Character create: c;", some Exc.invalidMessage.text),
  (b!"Integer create: i;", some Exc.invalidMessage.text),
  (b!"Float create: f;", some Exc.invalidMessage.text)] = true := by decide +kernel

/-- `tests/context_test.cpp:1304` -/
example : replay start [
  (b!"Boolean create: t withValue: true;", some b!"null"),
  (b!"t isTrue? 42;", some Exc.wrongNumberOfArguments.text),
  (b!"t isFalse? 42;", some Exc.wrongNumberOfArguments.text),
  (b!"Character create: space withValue: ' ';", some b!"null"),
  (b!"space isAlphabetic? 42;", some Exc.wrongNumberOfArguments.text),
  (b!"space isNumeric? 42;", some Exc.wrongNumberOfArguments.text),
  (b!"space isAlphanumeric? 42;", some Exc.wrongNumberOfArguments.text),
  (b!"space isSpace? 42;", some Exc.wrongNumberOfArguments.text),
  (b!"String create: str withValue: \"knuckleball\";", some b!"null"),
  (b!"str isEmpty? 42;", some Exc.wrongNumberOfArguments.text),
  (b!"Vector<Integer> create: prices;", some b!"null"),
  (b!"prices isEmpty? 42;", some Exc.wrongNumberOfArguments.text),
  (b!"Set<String> create: ids;", some b!"null"),
  (b!"ids isEmpty? 42;", some Exc.wrongNumberOfArguments.text),
  (b!"Dictionary<String, Integer> create: ages;", some b!"null"),
  (b!"ages isEmpty? 42;", some Exc.wrongNumberOfArguments.text)] = true := by decide +kernel

/-- `tests/context_test.cpp:1334` -/
example : replay start [
  (b!"Boolean create: t withValue: true;", some b!"null"),
  (b!"Boolean create: t withValue: false;", some Exc.nameAlreadyUsed.text),
  (b!"t get;", some b!"true"),
  (b!"Character create: numeric withValue: '0';", some b!"null"),
  (b!"Character create: numeric withValue: '1';", some Exc.nameAlreadyUsed.text),
  (b!"numeric get;", some b!"'0'"),
  (b!"Integer create: i withValue: 42;", some b!"null"),
  (b!"Integer create: i withValue: 43;", some Exc.nameAlreadyUsed.text),
  (b!"i get;", some b!"42"),
  (b!"Float create: f withValue: 42.0;", some b!"null"),
  (b!"Float create: f withValue: 43.0;", some Exc.nameAlreadyUsed.text),
  (b!"f get;", some b!"42.000"),
  (b!"String create: str withValue: \"knuckleball\";", some b!"null"),
  (b!"String create: str;", some Exc.nameAlreadyUsed.text),
  (b!"String create: str withValue: \"\";", some Exc.nameAlreadyUsed.text),
  (b!"str get;", some b!"\"knuckleball\""),
  (b!"Vector<Integer> create: prices;", some b!"null"),
  (b!"Vector<Integer> create: prices;", some Exc.nameAlreadyUsed.text),
  (b!"Set<String> create: ids;", some b!"null"),
  (b!"Set<String> create: ids;", some Exc.nameAlreadyUsed.text),
  (b!"Dictionary<String, Integer> create: ages;", some b!"null"),
  (b!"Dictionary<String, Integer> create: ages;", some Exc.nameAlreadyUsed.text)] = true := by decide +kernel

/-- `tests/context_test.cpp:1374` -/
example : replay start [
  (b!"Boolean create: t withValue: true;", some b!"null"),
  (b!"Boolean create: t withValue: 1;", some Exc.invalidArgument.text),
  (b!"Boolean create: 42 withValue: true;", some Exc.invalidArgument.text),
  (b!"Boolean createIfNotExists: t withValue: 1;", some Exc.invalidArgument.text),
  (b!"Boolean createIfNotExists: 42 withValue: true;", some Exc.invalidArgument.text),
  (b!"t set: 0;", some Exc.invalidArgument.text)] = true := by decide +kernel

/-- `tests/context_test.cpp:1389` -/
example : replay start [
  (b!"Character create: numeric withValue: '0';", some b!"null"),
  (b!"Character create: numeric withValue: \"0\";", some Exc.invalidArgument.text),
  (b!"Character create: 42 withValue: '0';", some Exc.invalidArgument.text),
  (b!"Character createIfNotExists: numeric withValue: \"0\";", some Exc.invalidArgument.text),
  (b!"Character createIfNotExists: 42 withValue: '0';", some Exc.invalidArgument.text),
  (b!"numeric set: 1;", some Exc.invalidArgument.text),
  (b!"numeric isEqualTo? 0;", some Exc.invalidArgument.text),
  (b!"numeric isLessThan? \"0\";", some Exc.invalidArgument.text),
  (b!"numeric isLessThanOrEqualTo? \"0\";", some Exc.invalidArgument.text),
  (b!"numeric isGreaterThan? 0;", some Exc.invalidArgument.text),
  (b!"numeric isGreaterThanOrEqualTo? 0;", some Exc.invalidArgument.text)] = true := by decide +kernel

/-- `tests/context_test.cpp:1419` -/
example : replay start [
  (b!"Integer create: i withValue: 42;", some b!"null"),
  (b!"Integer create: i withValue: \"42\";", some Exc.invalidArgument.text),
  (b!"Integer create: \"i\" withValue: 42;", some Exc.invalidArgument.text),
  (b!"Integer createIfNotExists: i withValue: \"42\";", some Exc.invalidArgument.text),
  (b!"Integer createIfNotExists: \"i\" withValue: 42;", some Exc.invalidArgument.text),
  (b!"i set: '0';", some Exc.invalidArgument.text),
  (b!"i isEqualTo? \"42\";", some Exc.invalidArgument.text),
  (b!"i isLessThan? false;", some Exc.invalidArgument.text),
  (b!"i isLessThanOrEqualTo? true;", some Exc.invalidArgument.text),
  (b!"i isGreaterThan? 'a';", some Exc.invalidArgument.text),
  (b!"i isGreaterThanOrEqualTo? \"42\";", some Exc.invalidArgument.text),
  (b!"i add: true;", some Exc.invalidArgument.text),
  (b!"i subtract: \"42\";", some Exc.invalidArgument.text),
  (b!"i multiplyBy: \"2.5\";", some Exc.invalidArgument.text),
  (b!"i divideBy: '2';", some Exc.invalidArgument.text)] = true := by decide +kernel

/-- `tests/context_test.cpp:1461` -/
example : replay start [
  (b!"Float create: f withValue: 42.0;", some b!"null"),
  (b!"Float create: f withValue: \"42\";", some Exc.invalidArgument.text),
  (b!"Float create: \"f\" withValue: 42.0;", some Exc.invalidArgument.text),
  (b!"Float createIfNotExists: f withValue: \"42\";", some Exc.invalidArgument.text),
  (b!"Float createIfNotExists: \"f\" withValue: 42.0;", some Exc.invalidArgument.text),
  (b!"f set: '0';", some Exc.invalidArgument.text),
  (b!"f isEqualTo? \"42\";", some Exc.invalidArgument.text),
  (b!"f isLessThan? '0';", some Exc.invalidArgument.text),
  (b!"f isLessThanOrEqualTo? true;", some Exc.invalidArgument.text),
  (b!"f isGreaterThan? \"0\";", some Exc.invalidArgument.text),
  (b!"f isGreaterThanOrEqualTo? false;", some Exc.invalidArgument.text),
  (b!"f add: \"knuckleball\";", some Exc.invalidArgument.text),
  (b!"f subtract: i;", some Exc.invalidArgument.text),
  (b!"f multiplyBy: true;", some Exc.invalidArgument.text),
  (b!"f divideBy: false;", some Exc.invalidArgument.text)] = true := by decide +kernel

/-- `tests/context_test.cpp:1503` -/
example : replay start [
  (b!"String create: str withValue: \"knuckleball\";", some b!"null"),
  (b!"String create: 42;", some Exc.invalidArgument.text),
  (b!"String createIfNotExists: 42;", some Exc.invalidArgument.text),
  (b!"String create: str withValue: 42;", some Exc.invalidArgument.text),
  (b!"String create: 42 withValue: \"knuckleball\";", some Exc.invalidArgument.text),
  (b!"String createIfNotExists: str withValue: 42;", some Exc.invalidArgument.text),
  (b!"String createIfNotExists: 42 withValue: \"knuckleball\";", some Exc.invalidArgument.text),
  (b!"str set: 42;", some Exc.invalidArgument.text),
  (b!"str startsWith? 42;", some Exc.invalidArgument.text),
  (b!"str endsWith? 42;", some Exc.invalidArgument.text),
  (b!"str isLexicographicallyEqualTo? 42;", some Exc.invalidArgument.text),
  (b!"str isLexicographicallyLessThan? 42;", some Exc.invalidArgument.text),
  (b!"str isLexicographicallyLessThanOrEqualTo? 42;", some Exc.invalidArgument.text),
  (b!"str isLexicographicallyGreaterThan? 42;", some Exc.invalidArgument.text),
  (b!"str isLexicographicallyGreaterThanOrEqualTo? 42;", some Exc.invalidArgument.text),
  (b!"str atIndex: true;", some Exc.invalidArgument.text),
  (b!"str first: \"42\";", some Exc.invalidArgument.text),
  (b!"str last: \"42\";", some Exc.invalidArgument.text),
  (b!"str substringFromIndex: 'a';", some Exc.invalidArgument.text),
  (b!"str substringFromIndex: true toIndex: 43;", some Exc.invalidArgument.text),
  (b!"str substringFromIndex: 42 toIndex: false;", some Exc.invalidArgument.text),
  (b!"str pushBack: 42;", some Exc.invalidArgument.text),
  (b!"str pushFront: 42;", some Exc.invalidArgument.text),
  (b!"str concatenate: 42;", some Exc.invalidArgument.text),
  (b!"str insert: 42 beforeIndex: 0;", some Exc.invalidArgument.text),
  (b!"str insert: \"knuckleball\" beforeIndex: '4';", some Exc.invalidArgument.text),
  (b!"str popAtIndex: \"0\";", some Exc.invalidArgument.text),
  (b!"str eraseFromIndex: \"42\";", some Exc.invalidArgument.text),
  (b!"str eraseFromIndex: \"42\" toIndex: 43;", some Exc.invalidArgument.text),
  (b!"str eraseFromIndex: 42 toIndex: \"43\";", some Exc.invalidArgument.text)] = true := by decide +kernel

/-- `tests/context_test.cpp:1584` -/
example : replay start [
  (b!"Vector<Integer> create: prices;", some b!"null"),
  (b!"Vector<Integer> create: 42;", some Exc.invalidArgument.text),
  (b!"Vector<Integer> createIfNotExists: 42;", some Exc.invalidArgument.text),
  (b!"prices contains? true;", some Exc.invalidArgument.text),
  (b!"prices contains? true fromIndex: 0;", some Exc.invalidArgument.text),
  (b!"prices contains? 42 fromIndex: \"0\";", some Exc.invalidArgument.text),
  (b!"prices count: true;", some Exc.invalidArgument.text),
  (b!"prices atIndex: \"42\";", some Exc.invalidArgument.text),
  (b!"prices firstIndexOf: \"42\";", some Exc.invalidArgument.text),
  (b!"prices firstIndexOf: \"42\" fromIndex: 0;", some Exc.invalidArgument.text),
  (b!"prices firstIndexOf: 42 fromIndex: true;", some Exc.invalidArgument.text),
  (b!"prices allIndexesOf: \"42\";", some Exc.invalidArgument.text),
  (b!"prices first: \"42\";", some Exc.invalidArgument.text),
  (b!"prices last: \"42\";", some Exc.invalidArgument.text),
  (b!"prices sliceFromIndex: \"42\";", some Exc.invalidArgument.text),
  (b!"prices sliceFromIndex: \"42\" toIndex: 42;", some Exc.invalidArgument.text),
  (b!"prices sliceFromIndex: 42 toIndex: \"42\";", some Exc.invalidArgument.text),
  (b!"prices pushBack: true;", some Exc.invalidArgument.text),
  (b!"prices pushFront: true;", some Exc.invalidArgument.text),
  (b!"prices insert: \"42\" beforeIndex: 0;", some Exc.invalidArgument.text),
  (b!"prices insert: 42 beforeIndex: \"0\";", some Exc.invalidArgument.text),
  (b!"prices popAtIndex: \"0\";", some Exc.invalidArgument.text),
  (b!"prices eraseFromIndex: \"42\";", some Exc.invalidArgument.text),
  (b!"prices eraseFromIndex: 0 toIndex: \"42\";", some Exc.invalidArgument.text),
  (b!"prices eraseFromIndex: \"0\" toIndex: 42;", some Exc.invalidArgument.text),
  (b!"prices removeFirst: \"42\";", some Exc.invalidArgument.text),
  (b!"prices removeFirst: \"42\" fromIndex: 0;", some Exc.invalidArgument.text),
  (b!"prices removeFirst: 42 fromIndex: \"0\";", some Exc.invalidArgument.text),
  (b!"prices removeAll: \"42\";", some Exc.invalidArgument.text),
  (b!"prices replaceFirst: \"42\" with: 42;", some Exc.invalidArgument.text),
  (b!"prices replaceFirst: 42 with: \"42\";", some Exc.invalidArgument.text),
  (b!"prices replaceFirst: \"42\" fromIndex: 0 with: 42;", some Exc.invalidArgument.text),
  (b!"prices replaceFirst: 42 fromIndex: \"0\" with: 42;", some Exc.invalidArgument.text),
  (b!"prices replaceFirst: 42 fromIndex: 0 with: \"42\";", some Exc.invalidArgument.text),
  (b!"prices replaceAll: \"42\" with: 42;", some Exc.invalidArgument.text),
  (b!"prices replaceAll: 42 with: \"42\";", some Exc.invalidArgument.text)] = true := by decide +kernel

/-- `tests/context_test.cpp:1673` -/
example : replay start [
  (b!"Set<String> create: ids;", some b!"null"),
  (b!"Set<String> create: 42;", some Exc.invalidArgument.text),
  (b!"Set<String> createIfNotExists: 42;", some Exc.invalidArgument.text),
  (b!"ids contains? true;", some Exc.invalidArgument.text),
  (b!"ids add: 42;", some Exc.invalidArgument.text),
  (b!"ids remove: 42;", some Exc.invalidArgument.text)] = true := by decide +kernel

/-- `tests/context_test.cpp:1692` -/
example : replay start [
  (b!"Dictionary<String, Integer> create: ages;", some b!"null"),
  (b!"Dictionary<String, Integer> create: 42;", some Exc.invalidArgument.text),
  (b!"Dictionary<String, Integer> createIfNotExists: 42;", some Exc.invalidArgument.text),
  (b!"ages containsKey? true;", some Exc.invalidArgument.text),
  (b!"ages getValueForKey: 42;", some Exc.invalidArgument.text),
  (b!"ages associateValue: \"knuckleball\" withKey: 42;", some Exc.invalidArgument.text),
  (b!"ages removeKey: 42;", some Exc.invalidArgument.text)] = true := by decide +kernel

/-- `tests/context_test.cpp:1716` -/
example : replay start [
  (b!"Boolean create:t withValue:true;", some b!"null"),
  (b!"t get;", some b!"true"),
  (b!"  Integer  create:  i  withValue:  42  ;  ", some b!"null"),
  (b!"i get;", some b!"42")] = true := by decide +kernel

end Knuckle.Validation
