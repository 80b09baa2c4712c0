/-
The example sessions of README.md, each on a fresh server with the default settings.

Generated by tools/reference.py.  These are tests of the model, checked by the kernel; they are not part of the proofs.
-/
import Verif.Validation.Context
import Verif.Model.Main

namespace Knuckle.Validation

/-- A server started without options (`src/knuckleball.cpp:49-52`), quiet. -/
def plain : Ctx := Ctx.init 3 defaultTolerance false true

/-- `README.md:54` -/
example : replay plain [
  (b!"Integer create: i withValue: 42;", some b!"null"),
  (b!"i add: 8;", some b!"null"),
  (b!"i get;", some b!"50")] = true := by decide +kernel

/-- `README.md:65` -/
example : replay plain [
  (b!"Vector<Integer> create: mynamespace::points;", some b!"null"),
  (b!"mynamespace::points pushBack: 3;", some b!"null"),
  (b!"mynamespace::points pushBack: 7;", some b!"null"),
  (b!"mynamespace::points pushBack: 5;", some b!"null"),
  (b!"mynamespace::points popFront;", some b!"3"),
  (b!"mynamespace::points get;", some b!"[7,5]")] = true := by decide +kernel

/-- `README.md:82` -/
example : replay plain [
  (b!"Set<String> create: players;", some b!"null"),
  (b!"players add: \"Babe Ruth\";", some b!"null"),
  (b!"players add: \"David Ortiz\";", some b!"null"),
  (b!"players add: \"Paulo Orlando\";", some b!"null"),
  (b!"players contains? \"Jake Arrieta\";", some b!"false"),
  (b!"players get;", some b!"{\"Babe Ruth\",\"David Ortiz\",\"Paulo Orlando\"}")] = true := by decide +kernel

/-- `README.md:99` -/
example : replay plain [
  (b!"Dictionary<String, Float> create: ERAs;", some b!"null"),
  (b!"ERAs associateValue: 1.82 withKey: \"Ed Walsh\";", some b!"null"),
  (b!"ERAs associateValue: 2.21 withKey: \"Mariano Rivera\";", some b!"null"),
  (b!"ERAs associateValue: 2.39 withKey: \"Clayton Kershaw\";", some b!"null"),
  (b!"ERAs getValueForKey: \"Mariano Rivera\";", some b!"2.210"),
  (b!"ERAs get;", some b!"((\"Clayton Kershaw\",2.390),(\"Ed Walsh\",1.820),(\"Mariano Rivera\",2.210))")] = true := by decide +kernel

/-- `README.md:126` -/
example : replay plain [
  (b!"Boolean create: t withValue: true;", some b!"null"),
  (b!"Boolean create: f withValue: false;", some b!"null"),
  (b!"t get;", some b!"true"),
  (b!"f get;", some b!"false")] = true := by decide +kernel

/-- `README.md:139` -/
example : replay plain [
  (b!"Boolean createIfNotExists: t withValue: true;", some b!"null"),
  (b!"Boolean createIfNotExists: f withValue: false;", some b!"null"),
  (b!"t get;", some b!"true"),
  (b!"f get;", some b!"false")] = true := by decide +kernel

/-- `README.md:153` -/
example : replay plain [
  (b!"Boolean create: t withValue: true;", some b!"null"),
  (b!"t get;", some b!"true")] = true := by decide +kernel

/-- `README.md:162` -/
example : replay plain [
  (b!"Boolean create: t withValue: true;", some b!"null"),
  (b!"t set: false;", some b!"null"),
  (b!"t get;", some b!"false")] = true := by decide +kernel

/-- `README.md:173` -/
example : replay plain [
  (b!"Boolean create: t withValue: true;", some b!"null"),
  (b!"Boolean create: f withValue: false;", some b!"null"),
  (b!"t isTrue?;", some b!"true"),
  (b!"f isTrue?;", some b!"false")] = true := by decide +kernel

/-- `README.md:186` -/
example : replay plain [
  (b!"Boolean create: t withValue: true;", some b!"null"),
  (b!"Boolean create: f withValue: false;", some b!"null"),
  (b!"t isFalse?;", some b!"false"),
  (b!"f isFalse?;", some b!"true")] = true := by decide +kernel

/-- `README.md:203` -/
example : replay plain [
  (b!"Character create: alphabetic withValue: 'a';", some b!"null"),
  (b!"Character create: numeric withValue: '0';", some b!"null"),
  (b!"Character create: space withValue: ' ';", some b!"null"),
  (b!"alphabetic get;", some b!"'a'"),
  (b!"numeric get;", some b!"'0'"),
  (b!"space get;", some b!"' '")] = true := by decide +kernel

/-- `README.md:220` -/
example : replay plain [
  (b!"Character createIfNotExists: alphabetic withValue: 'a';", some b!"null"),
  (b!"Character createIfNotExists: numeric withValue: '0';", some b!"null"),
  (b!"Character createIfNotExists: space withValue: ' ';", some b!"null"),
  (b!"alphabetic get;", some b!"'a'"),
  (b!"numeric get;", some b!"'0'"),
  (b!"space get;", some b!"' '")] = true := by decide +kernel

/-- `README.md:238` -/
example : replay plain [
  (b!"Character create: alphabetic withValue: 'a';", some b!"null"),
  (b!"alphabetic get;", some b!"'a'")] = true := by decide +kernel

/-- `README.md:247` -/
example : replay plain [
  (b!"Character create: alphabetic withValue: 'a';", some b!"null"),
  (b!"alphabetic set: 'z';", some b!"null"),
  (b!"alphabetic get;", some b!"'z'")] = true := by decide +kernel

/-- `README.md:258` -/
example : replay plain [
  (b!"Character create: alphabetic withValue: 'a';", some b!"null"),
  (b!"Character create: numeric withValue: '0';", some b!"null"),
  (b!"Character create: space withValue: ' ';", some b!"null"),
  (b!"alphabetic isAlphabetic?;", some b!"true"),
  (b!"numeric isAlphabetic?;", some b!"false"),
  (b!"space isAlphabetic?;", some b!"false")] = true := by decide +kernel

/-- `README.md:275` -/
example : replay plain [
  (b!"Character create: alphabetic withValue: 'a';", some b!"null"),
  (b!"Character create: numeric withValue: '0';", some b!"null"),
  (b!"Character create: space withValue: ' ';", some b!"null"),
  (b!"alphabetic isNumeric?;", some b!"false"),
  (b!"numeric isNumeric?;", some b!"true"),
  (b!"space isNumeric?;", some b!"false")] = true := by decide +kernel

/-- `README.md:292` -/
example : replay plain [
  (b!"Character create: alphabetic withValue: 'a';", some b!"null"),
  (b!"Character create: numeric withValue: '0';", some b!"null"),
  (b!"Character create: space withValue: ' ';", some b!"null"),
  (b!"alphabetic isAlphanumeric?;", some b!"true"),
  (b!"numeric isAlphanumeric?;", some b!"true"),
  (b!"space isAlphanumeric?;", some b!"false")] = true := by decide +kernel

/-- `README.md:309` -/
example : replay plain [
  (b!"Character create: alphabetic withValue: 'a';", some b!"null"),
  (b!"Character create: numeric withValue: '0';", some b!"null"),
  (b!"Character create: space withValue: ' ';", some b!"null"),
  (b!"alphabetic isSpace?;", some b!"false"),
  (b!"numeric isSpace?;", some b!"false"),
  (b!"space isSpace?;", some b!"true")] = true := by decide +kernel

/-- `README.md:326` -/
example : replay plain [
  (b!"Character create: alphabetic withValue: 'a';", some b!"null"),
  (b!"alphabetic isEqualTo? 'a';", some b!"true"),
  (b!"alphabetic isEqualTo? 'z';", some b!"false")] = true := by decide +kernel

/-- `README.md:337` -/
example : replay plain [
  (b!"Character create: alphabetic withValue: 'a';", some b!"null"),
  (b!"alphabetic isLessThan? 'z';", some b!"true"),
  (b!"alphabetic isLessThan? 'a';", some b!"false")] = true := by decide +kernel

/-- `README.md:348` -/
example : replay plain [
  (b!"Character create: alphabetic withValue: 'z';", some b!"null"),
  (b!"alphabetic isLessThanOrEqualTo? 'z';", some b!"true"),
  (b!"alphabetic isLessThanOrEqualTo? 'a';", some b!"false")] = true := by decide +kernel

/-- `README.md:359` -/
example : replay plain [
  (b!"Character create: alphabetic withValue: 'z';", some b!"null"),
  (b!"alphabetic isGreaterThan? 'a';", some b!"true"),
  (b!"alphabetic isGreaterThan? 'z';", some b!"false")] = true := by decide +kernel

/-- `README.md:370` -/
example : replay plain [
  (b!"Character create: alphabetic withValue: 'a';", some b!"null"),
  (b!"alphabetic isGreaterThanOrEqualTo? 'a';", some b!"true"),
  (b!"alphabetic isGreaterThanOrEqualTo? 'z';", some b!"false")] = true := by decide +kernel

/-- `README.md:385` -/
example : replay plain [
  (b!"Integer create: i withValue: 42;", some b!"null"),
  (b!"i get;", some b!"42")] = true := by decide +kernel

/-- `README.md:394` -/
example : replay plain [
  (b!"Integer createIfNotExists: i withValue: 42;", some b!"null"),
  (b!"i get;", some b!"42")] = true := by decide +kernel

/-- `README.md:404` -/
example : replay plain [
  (b!"Integer create: i withValue: 42;", some b!"null"),
  (b!"i get;", some b!"42")] = true := by decide +kernel

/-- `README.md:413` -/
example : replay plain [
  (b!"Integer create: i withValue: 42;", some b!"null"),
  (b!"i set: -42;", some b!"null"),
  (b!"i get;", some b!"-42")] = true := by decide +kernel

/-- `README.md:424` -/
example : replay plain [
  (b!"Integer create: i withValue: 42;", some b!"null"),
  (b!"i isEqualTo? 42;", some b!"true"),
  (b!"i isEqualTo? 0;", some b!"false")] = true := by decide +kernel

/-- `README.md:435` -/
example : replay plain [
  (b!"Integer create: i withValue: 0;", some b!"null"),
  (b!"i isLessThan? 42;", some b!"true"),
  (b!"i isLessThan? 0;", some b!"false")] = true := by decide +kernel

/-- `README.md:446` -/
example : replay plain [
  (b!"Integer create: i withValue: 42;", some b!"null"),
  (b!"i isLessThanOrEqualTo? 42;", some b!"true"),
  (b!"i isLessThanOrEqualTo? 0;", some b!"false")] = true := by decide +kernel

/-- `README.md:457` -/
example : replay plain [
  (b!"Integer create: i withValue: 42;", some b!"null"),
  (b!"i isGreaterThan? 0;", some b!"true"),
  (b!"i isGreaterThan? 42;", some b!"false")] = true := by decide +kernel

/-- `README.md:468` -/
example : replay plain [
  (b!"Integer create: i withValue: 0;", some b!"null"),
  (b!"i isGreaterThanOrEqualTo? 0;", some b!"true"),
  (b!"i isGreaterThanOrEqualTo? 42;", some b!"false")] = true := by decide +kernel

/-- `README.md:479` -/
example : replay plain [
  (b!"Integer create: i withValue: 42;", some b!"null"),
  (b!"i add: 10;", some b!"null"),
  (b!"i get;", some b!"52")] = true := by decide +kernel

/-- `README.md:490` -/
example : replay plain [
  (b!"Integer create: i withValue: 52;", some b!"null"),
  (b!"i subtract: 10;", some b!"null"),
  (b!"i get;", some b!"42")] = true := by decide +kernel

/-- `README.md:501` -/
example : replay plain [
  (b!"Integer create: i withValue: 10;", some b!"null"),
  (b!"i multiplyBy: 4.2;", some b!"null"),
  (b!"i get;", some b!"42")] = true := by decide +kernel

/-- `README.md:512` -/
example : replay plain [
  (b!"Integer create: i withValue: 42;", some b!"null"),
  (b!"i divideBy: 4.2;", some b!"null"),
  (b!"i get;", some b!"10")] = true := by decide +kernel

/-- `README.md:527` -/
example : replay plain [
  (b!"Float create: f withValue: 42.0;", some b!"null"),
  (b!"Float create: e withValue: 1e-2;", some b!"null"),
  (b!"f get;", some b!"42.000"),
  (b!"e get;", some b!"0.010")] = true := by decide +kernel

/-- `README.md:540` -/
example : replay plain [
  (b!"Float createIfNotExists: f withValue: 42.0;", some b!"null"),
  (b!"Float createIfNotExists: e withValue: 1e-2;", some b!"null"),
  (b!"f get;", some b!"42.000"),
  (b!"e get;", some b!"0.010")] = true := by decide +kernel

/-- `README.md:554` -/
example : replay plain [
  (b!"Float create: f withValue: 42.0;", some b!"null"),
  (b!"f get;", some b!"42.000")] = true := by decide +kernel

/-- `README.md:563` -/
example : replay plain [
  (b!"Float create: f withValue: 42.0;", some b!"null"),
  (b!"f set: -42.0;", some b!"null"),
  (b!"f get;", some b!"-42.000")] = true := by decide +kernel

/-- `README.md:574` -/
example : replay plain [
  (b!"Float create: f withValue: 42.0;", some b!"null"),
  (b!"f isEqualTo? 42.0;", some b!"true"),
  (b!"f isEqualTo? 0.0;", some b!"false")] = true := by decide +kernel

/-- `README.md:585` -/
example : replay plain [
  (b!"Float create: f withValue: 0.0;", some b!"null"),
  (b!"f isLessThan? 42.0;", some b!"true"),
  (b!"f isLessThan? 0.0;", some b!"false")] = true := by decide +kernel

/-- `README.md:596` -/
example : replay plain [
  (b!"Float create: f withValue: 42.0;", some b!"null"),
  (b!"f isLessThanOrEqualTo? 42.0;", some b!"true"),
  (b!"f isLessThanOrEqualTo? 0.0;", some b!"false")] = true := by decide +kernel

/-- `README.md:607` -/
example : replay plain [
  (b!"Float create: f withValue: 42.0;", some b!"null"),
  (b!"f isGreaterThan? 0.0;", some b!"true"),
  (b!"f isGreaterThan? 42.0;", some b!"false")] = true := by decide +kernel

/-- `README.md:618` -/
example : replay plain [
  (b!"Float create: f withValue: 0.0;", some b!"null"),
  (b!"f isGreaterThanOrEqualTo? 0.0;", some b!"true"),
  (b!"f isGreaterThanOrEqualTo? 42.0;", some b!"false")] = true := by decide +kernel

/-- `README.md:629` -/
example : replay plain [
  (b!"Float create: f withValue: 42.0;", some b!"null"),
  (b!"f add: 10.0;", some b!"null"),
  (b!"f get;", some b!"52.000")] = true := by decide +kernel

/-- `README.md:640` -/
example : replay plain [
  (b!"Float create: f withValue: 52.0;", some b!"null"),
  (b!"f subtract: 10.0;", some b!"null"),
  (b!"f get;", some b!"42.000")] = true := by decide +kernel

/-- `README.md:651` -/
example : replay plain [
  (b!"Float create: f withValue: 4.2;", some b!"null"),
  (b!"f multiplyBy: 10.0;", some b!"null"),
  (b!"f get;", none),
  (b!"42.000;", none)] = true := by decide +kernel

/-- `README.md:662` -/
example : replay plain [
  (b!"Float create: f withValue: 42.0;", some b!"null"),
  (b!"f divideBy: 4.2;", some b!"null"),
  (b!"f get;", some b!"10.000")] = true := by decide +kernel

/-- `README.md:677` -/
example : replay plain [
  (b!"String create: str;", some b!"null"),
  (b!"str get;", some b!"\"\"")] = true := by decide +kernel

/-- `README.md:686` -/
example : replay plain [
  (b!"String createIfNotExists: str;", some b!"null"),
  (b!"str get;", some b!"\"\"")] = true := by decide +kernel

/-- `README.md:695` -/
example : replay plain [
  (b!"String create: str withValue: \"knuckleball\";", some b!"null"),
  (b!"str get;", some b!"\"knuckleball\"")] = true := by decide +kernel

/-- `README.md:704` -/
example : replay plain [
  (b!"String createIfNotExists: str withValue: \"knuckleball\";", some b!"null"),
  (b!"str get;", some b!"\"knuckleball\"")] = true := by decide +kernel

/-- `README.md:714` -/
example : replay plain [
  (b!"String create: str withValue: \"knuckleball\";", some b!"null"),
  (b!"str get;", some b!"\"knuckleball\"")] = true := by decide +kernel

/-- `README.md:723` -/
example : replay plain [
  (b!"String create: str withValue: \"\";", some b!"null"),
  (b!"str set: \"knuckleball\";", some b!"null"),
  (b!"str get;", some b!"\"knuckleball\"")] = true := by decide +kernel

/-- `README.md:734` -/
example : replay plain [
  (b!"String create: str withValue: \"\";", some b!"null"),
  (b!"str isEmpty?;", some b!"true"),
  (b!"str concatenate: \"knuckleball\";", some b!"null"),
  (b!"str isEmpty?;", some b!"false")] = true := by decide +kernel

/-- `README.md:747` -/
example : replay plain [
  (b!"String create: str withValue: \"knuckleball\";", some b!"null"),
  (b!"str startsWith? \"knuckle\";", some b!"true"),
  (b!"str startsWith? \"ball\";", some b!"false")] = true := by decide +kernel

/-- `README.md:758` -/
example : replay plain [
  (b!"String create: str withValue: \"knuckleball\";", some b!"null"),
  (b!"str endsWith? \"ball\";", some b!"true"),
  (b!"str endsWith? \"knuckle\";", some b!"false")] = true := by decide +kernel

/-- `README.md:769` -/
example : replay plain [
  (b!"String create: str withValue: \"knuckleball\";", some b!"null"),
  (b!"str isLexicographicallyEqualTo? \"knuckleball\";", some b!"true"),
  (b!"str isLexicographicallyEqualTo? \"\";", some b!"false")] = true := by decide +kernel

/-- `README.md:780` -/
example : replay plain [
  (b!"String create: str withValue: \"\";", some b!"null"),
  (b!"str isLexicographicallyLessThan? \"knuckleball\";", some b!"true"),
  (b!"str isLexicographicallyLessThan? \"\";", some b!"false")] = true := by decide +kernel

/-- `README.md:791` -/
example : replay plain [
  (b!"String create: str withValue: \"knuckleball\";", some b!"null"),
  (b!"str isLexicographicallyLessThanOrEqualTo? \"knuckleball\";", some b!"true"),
  (b!"str isLexicographicallyLessThanOrEqualTo? \"\";", some b!"false")] = true := by decide +kernel

/-- `README.md:802` -/
example : replay plain [
  (b!"String create: str withValue: \"knuckleball\";", some b!"null"),
  (b!"str isLexicographicallyGreaterThan? \"\";", some b!"true"),
  (b!"str isLexicographicallyGreaterThan? \"knuckleball\";", some b!"false")] = true := by decide +kernel

/-- `README.md:813` -/
example : replay plain [
  (b!"String create: str withValue: \"\";", some b!"null"),
  (b!"str isLexicographicallyGreaterThanOrEqualTo? \"\";", some b!"true"),
  (b!"str isLexicographicallyGreaterThanOrEqualTo? \"knuckleball\";", some b!"false")] = true := by decide +kernel

/-- `README.md:824` -/
example : replay plain [
  (b!"String create: str withValue: \"knuckleball\";", some b!"null"),
  (b!"str length;", some b!"11")] = true := by decide +kernel

/-- `README.md:833` -/
example : replay plain [
  (b!"String create: str withValue: \"knuckleball\";", some b!"null"),
  (b!"str atIndex: 0;", some b!"'k'")] = true := by decide +kernel

/-- `README.md:842` -/
example : replay plain [
  (b!"String create: str withValue: \"knuckleball\";", some b!"null"),
  (b!"str first: 7;", some b!"\"knuckle\"")] = true := by decide +kernel

/-- `README.md:851` -/
example : replay plain [
  (b!"String create: str withValue: \"knuckleball\";", some b!"null"),
  (b!"str last: 4;", some b!"\"ball\"")] = true := by decide +kernel

/-- `README.md:860` -/
example : replay plain [
  (b!"String create: str withValue: \"knuckleball\";", some b!"null"),
  (b!"str substringFromIndex: 7;", some b!"\"ball\"")] = true := by decide +kernel

/-- `README.md:869` -/
example : replay plain [
  (b!"String create: str withValue: \"knuckleball\";", some b!"null"),
  (b!"str substringFromIndex: 0 toIndex: 7;", some b!"\"knuckle\"")] = true := by decide +kernel

/-- `README.md:878` -/
example : replay plain [
  (b!"String create: str withValue: \"knucklebal\";", some b!"null"),
  (b!"str pushBack: 'l';", some b!"null"),
  (b!"str get;", some b!"\"knuckleball\"")] = true := by decide +kernel

/-- `README.md:889` -/
example : replay plain [
  (b!"String create: str withValue: \"nuckleball\";", some b!"null"),
  (b!"str pushFront: 'k';", some b!"null"),
  (b!"str get;", some b!"\"knuckleball\"")] = true := by decide +kernel

/-- `README.md:900` -/
example : replay plain [
  (b!"String create: str withValue: \"knuckleball\";", some b!"null"),
  (b!"str popBack;", some b!"'l'"),
  (b!"str get;", some b!"\"knucklebal\"")] = true := by decide +kernel

/-- `README.md:911` -/
example : replay plain [
  (b!"String create: str withValue: \"knuckleball\";", some b!"null"),
  (b!"str popFront;", some b!"'k'"),
  (b!"str get;", some b!"\"nuckleball\"")] = true := by decide +kernel

/-- `README.md:922` -/
example : replay plain [
  (b!"String create: str withValue: \"knuckleball\";", some b!"null"),
  (b!"str popAtIndex: 2;", some b!"'u'"),
  (b!"str get;", some b!"\"knckleball\"")] = true := by decide +kernel

/-- `README.md:933` -/
example : replay plain [
  (b!"String create: str withValue: \"knuckle\";", some b!"null"),
  (b!"str concatenate: \"ball\";", some b!"null"),
  (b!"str get;", some b!"\"knuckleball\"")] = true := by decide +kernel

/-- `README.md:944` -/
example : replay plain [
  (b!"String create: str withValue: \"knkleball\";", some b!"null"),
  (b!"str insert: \"uc\" beforeIndex: 2;", some b!"null"),
  (b!"str get;", some b!"\"knuckleball\"")] = true := by decide +kernel

/-- `README.md:955` -/
example : replay plain [
  (b!"String create: str withValue: \"knuckleball\";", some b!"null"),
  (b!"str eraseFromIndex: 7;", some b!"null"),
  (b!"str get;", some b!"\"knuckle\"")] = true := by decide +kernel

/-- `README.md:966` -/
example : replay plain [
  (b!"String create: str withValue: \"knuckleball\";", some b!"null"),
  (b!"str eraseFromIndex: 7 toIndex: 9;", some b!"null"),
  (b!"str get;", some b!"\"knucklell\"")] = true := by decide +kernel

/-- `README.md:977` -/
example : replay plain [
  (b!"String create: str withValue: \"knuckleball\";", some b!"null"),
  (b!"str clear;", some b!"null"),
  (b!"str get;", some b!"\"\"")] = true := by decide +kernel

/-- `README.md:992` -/
example : replay plain [
  (b!"Vector<Integer> create: points;", some b!"null"),
  (b!"points get;", some b!"[]")] = true := by decide +kernel

/-- `README.md:1001` -/
example : replay plain [
  (b!"Vector<Integer> createIfNotExists: points;", some b!"null"),
  (b!"points get;", some b!"[]")] = true := by decide +kernel

/-- `README.md:1011` -/
example : replay plain [
  (b!"Vector<Integer> create: points;", some b!"null"),
  (b!"points get;", some b!"[]")] = true := by decide +kernel

/-- `README.md:1020` -/
example : replay plain [
  (b!"Vector<Integer> create: points;", some b!"null"),
  (b!"points isEmpty?;", some b!"true"),
  (b!"points pushBack: 42;", some b!"null"),
  (b!"points isEmpty?;", some b!"false")] = true := by decide +kernel

/-- `README.md:1033` -/
example : replay plain [
  (b!"Vector<Integer> create: points;", some b!"null"),
  (b!"points contains? 42;", some b!"false"),
  (b!"points pushBack: 42;", some b!"null"),
  (b!"points contains? 42;", some b!"true")] = true := by decide +kernel

/-- `README.md:1046` -/
example : replay plain [
  (b!"Vector<Integer> create: points;", some b!"null"),
  (b!"points pushBack: 3;", some b!"null"),
  (b!"points pushBack: 7;", some b!"null"),
  (b!"points pushBack: 5;", some b!"null"),
  (b!"points contains? 7 fromIndex: 0;", some b!"true"),
  (b!"points contains? 7 fromIndex: 2;", some b!"false")] = true := by decide +kernel

/-- `README.md:1063` -/
example : replay plain [
  (b!"Vector<Integer> create: points;", some b!"null"),
  (b!"points pushBack: 3;", some b!"null"),
  (b!"points pushBack: 7;", some b!"null"),
  (b!"points pushBack: 7;", some b!"null"),
  (b!"points count: 7;", some b!"2")] = true := by decide +kernel

/-- `README.md:1078` -/
example : replay plain [
  (b!"Vector<Integer> create: points;", some b!"null"),
  (b!"points pushBack: 3;", some b!"null"),
  (b!"points pushBack: 5;", some b!"null"),
  (b!"points pushBack: 7;", some b!"null"),
  (b!"points atIndex: 0;", some b!"3")] = true := by decide +kernel

/-- `README.md:1093` -/
example : replay plain [
  (b!"Vector<Integer> create: points;", some b!"null"),
  (b!"points pushBack: 3;", some b!"null"),
  (b!"points pushBack: 5;", some b!"null"),
  (b!"points pushBack: 3;", some b!"null"),
  (b!"points pushBack: 5;", some b!"null"),
  (b!"points firstIndexOf: 5;", some b!"1")] = true := by decide +kernel

/-- `README.md:1110` -/
example : replay plain [
  (b!"Vector<Integer> create: points;", some b!"null"),
  (b!"points pushBack: 3;", some b!"null"),
  (b!"points pushBack: 5;", some b!"null"),
  (b!"points pushBack: 3;", some b!"null"),
  (b!"points pushBack: 5;", some b!"null"),
  (b!"points firstIndexOf: 3 fromIndex: 1;", some b!"2")] = true := by decide +kernel

/-- `README.md:1127` -/
example : replay plain [
  (b!"Vector<Integer> create: points;", some b!"null"),
  (b!"points pushBack: 3;", some b!"null"),
  (b!"points pushBack: 5;", some b!"null"),
  (b!"points pushBack: 3;", some b!"null"),
  (b!"points allIndexesOf: 3;", some b!"[0,2]")] = true := by decide +kernel

/-- `README.md:1142` -/
example : replay plain [
  (b!"Vector<Integer> create: points;", some b!"null"),
  (b!"points pushBack: 3;", some b!"null"),
  (b!"points pushBack: 5;", some b!"null"),
  (b!"points pushBack: 7;", some b!"null"),
  (b!"points size;", some b!"3")] = true := by decide +kernel

/-- `README.md:1157` -/
example : replay plain [
  (b!"Vector<Integer> create: points;", some b!"null"),
  (b!"points pushBack: 3;", some b!"null"),
  (b!"points pushBack: 5;", some b!"null"),
  (b!"points pushBack: 7;", some b!"null"),
  (b!"points first: 2;", some b!"[3,5]")] = true := by decide +kernel

/-- `README.md:1172` -/
example : replay plain [
  (b!"Vector<Integer> create: points;", some b!"null"),
  (b!"points pushBack: 3;", some b!"null"),
  (b!"points pushBack: 5;", some b!"null"),
  (b!"points pushBack: 7;", some b!"null"),
  (b!"points last: 2;", some b!"[5,7]")] = true := by decide +kernel

/-- `README.md:1187` -/
example : replay plain [
  (b!"Vector<Integer> create: points;", some b!"null"),
  (b!"points pushBack: 3;", some b!"null"),
  (b!"points pushBack: 5;", some b!"null"),
  (b!"points pushBack: 7;", some b!"null"),
  (b!"points pushBack: 9;", some b!"null"),
  (b!"points sliceFromIndex: 2;", some b!"[7,9]")] = true := by decide +kernel

/-- `README.md:1204` -/
example : replay plain [
  (b!"Vector<Integer> create: points;", some b!"null"),
  (b!"points pushBack: 3;", some b!"null"),
  (b!"points pushBack: 5;", some b!"null"),
  (b!"points pushBack: 7;", some b!"null"),
  (b!"points pushBack: 9;", some b!"null"),
  (b!"points sliceFromIndex: 1 toIndex: 3;", some b!"[5,7]")] = true := by decide +kernel

/-- `README.md:1221` -/
example : replay plain [
  (b!"Vector<Integer> create: points;", some b!"null"),
  (b!"points pushBack: 3;", some b!"null"),
  (b!"points pushBack: 5;", some b!"null"),
  (b!"points pushBack: 7;", some b!"null"),
  (b!"points get;", some b!"[3,5,7]")] = true := by decide +kernel

/-- `README.md:1236` -/
example : replay plain [
  (b!"Vector<Integer> create: points;", some b!"null"),
  (b!"points pushFront: 3;", some b!"null"),
  (b!"points pushFront: 5;", some b!"null"),
  (b!"points pushFront: 7;", some b!"null"),
  (b!"points get;", some b!"[7,5,3]")] = true := by decide +kernel

/-- `README.md:1251` -/
example : replay plain [
  (b!"Vector<Integer> create: points;", some b!"null"),
  (b!"points pushBack: 3;", some b!"null"),
  (b!"points pushBack: 5;", some b!"null"),
  (b!"points pushBack: 7;", some b!"null"),
  (b!"points popBack;", some b!"7"),
  (b!"points get;", some b!"[3,5]")] = true := by decide +kernel

/-- `README.md:1268` -/
example : replay plain [
  (b!"Vector<Integer> create: points;", some b!"null"),
  (b!"points pushBack: 3;", some b!"null"),
  (b!"points pushBack: 5;", some b!"null"),
  (b!"points pushBack: 7;", some b!"null"),
  (b!"points popFront;", some b!"3"),
  (b!"points get;", some b!"[5,7]")] = true := by decide +kernel

/-- `README.md:1285` -/
example : replay plain [
  (b!"Vector<Integer> create: points;", some b!"null"),
  (b!"points pushBack: 3;", some b!"null"),
  (b!"points pushBack: 5;", some b!"null"),
  (b!"points pushBack: 7;", some b!"null"),
  (b!"points popAtIndex: 1;", some b!"5"),
  (b!"points get;", some b!"[3,7]")] = true := by decide +kernel

/-- `README.md:1302` -/
example : replay plain [
  (b!"Vector<Integer> create: points;", some b!"null"),
  (b!"points pushBack: 3;", some b!"null"),
  (b!"points pushBack: 7;", some b!"null"),
  (b!"points insert: 5 beforeIndex: 1;", some b!"null"),
  (b!"points get;", some b!"[3,5,7]")] = true := by decide +kernel

/-- `README.md:1317` -/
example : replay plain [
  (b!"Vector<Integer> create: points;", some b!"null"),
  (b!"points pushBack: 3;", some b!"null"),
  (b!"points pushBack: 5;", some b!"null"),
  (b!"points pushBack: 7;", some b!"null"),
  (b!"points eraseFromIndex: 1;", some b!"null"),
  (b!"points get;", some b!"[3]")] = true := by decide +kernel

/-- `README.md:1334` -/
example : replay plain [
  (b!"Vector<Integer> create: points;", some b!"null"),
  (b!"points pushBack: 3;", some b!"null"),
  (b!"points pushBack: 5;", some b!"null"),
  (b!"points pushBack: 7;", some b!"null"),
  (b!"points eraseFromIndex: 1 toIndex: 2;", some b!"null"),
  (b!"points get;", some b!"[3,7]")] = true := by decide +kernel

/-- `README.md:1351` -/
example : replay plain [
  (b!"Vector<Integer> create: points;", some b!"null"),
  (b!"points pushBack: 3;", some b!"null"),
  (b!"points pushBack: 5;", some b!"null"),
  (b!"points pushBack: 3;", some b!"null"),
  (b!"points pushBack: 5;", some b!"null"),
  (b!"points removeFirst: 5;", some b!"null"),
  (b!"points get;", some b!"[3,3,5]")] = true := by decide +kernel

/-- `README.md:1370` -/
example : replay plain [
  (b!"Vector<Integer> create: points;", some b!"null"),
  (b!"points pushBack: 3;", some b!"null"),
  (b!"points pushBack: 5;", some b!"null"),
  (b!"points pushBack: 3;", some b!"null"),
  (b!"points pushBack: 5;", some b!"null"),
  (b!"points removeFirst: 5 fromIndex: 2;", some b!"null"),
  (b!"points get;", some b!"[3,5,3]")] = true := by decide +kernel

/-- `README.md:1389` -/
example : replay plain [
  (b!"Vector<Integer> create: points;", some b!"null"),
  (b!"points pushBack: 3;", some b!"null"),
  (b!"points pushBack: 5;", some b!"null"),
  (b!"points pushBack: 3;", some b!"null"),
  (b!"points pushBack: 5;", some b!"null"),
  (b!"points removeAll: 3;", some b!"null"),
  (b!"points get;", some b!"[5,5]")] = true := by decide +kernel

/-- `README.md:1408` -/
example : replay plain [
  (b!"Vector<Integer> create: points;", some b!"null"),
  (b!"points pushBack: 3;", some b!"null"),
  (b!"points pushBack: 5;", some b!"null"),
  (b!"points pushBack: 3;", some b!"null"),
  (b!"points pushBack: 5;", some b!"null"),
  (b!"points replaceFirst: 5 with: 7;", some b!"null"),
  (b!"points get;", some b!"[3,7,3,5]")] = true := by decide +kernel

/-- `README.md:1427` -/
example : replay plain [
  (b!"Vector<Integer> create: points;", some b!"null"),
  (b!"points pushBack: 3;", some b!"null"),
  (b!"points pushBack: 5;", some b!"null"),
  (b!"points pushBack: 3;", some b!"null"),
  (b!"points pushBack: 5;", some b!"null"),
  (b!"points replaceFirst: 5 fromIndex: 2 with: 7;", some b!"null"),
  (b!"points get;", some b!"[3,5,3,7]")] = true := by decide +kernel

/-- `README.md:1446` -/
example : replay plain [
  (b!"Vector<Integer> create: points;", some b!"null"),
  (b!"points pushBack: 3;", some b!"null"),
  (b!"points pushBack: 5;", some b!"null"),
  (b!"points pushBack: 3;", some b!"null"),
  (b!"points pushBack: 5;", some b!"null"),
  (b!"points replaceAll: 5 with: 7;", some b!"null"),
  (b!"points get;", some b!"[3,7,3,7]")] = true := by decide +kernel

/-- `README.md:1465` -/
example : replay plain [
  (b!"Vector<Integer> create: points;", some b!"null"),
  (b!"points pushBack: 7;", some b!"null"),
  (b!"points pushBack: 3;", some b!"null"),
  (b!"points pushBack: 5;", some b!"null"),
  (b!"points sort;", some b!"null"),
  (b!"points get;", some b!"[3,5,7]")] = true := by decide +kernel

/-- `README.md:1482` -/
example : replay plain [
  (b!"Vector<Integer> create: points;", some b!"null"),
  (b!"points pushBack: 3;", some b!"null"),
  (b!"points pushBack: 5;", some b!"null"),
  (b!"points pushBack: 7;", some b!"null"),
  (b!"points reverse;", some b!"null"),
  (b!"points get;", some b!"[7,5,3]")] = true := by decide +kernel

/-- `README.md:1499` -/
example : replay plain [
  (b!"Vector<Integer> create: points;", some b!"null"),
  (b!"points pushBack: 3;", some b!"null"),
  (b!"points pushBack: 5;", some b!"null"),
  (b!"points pushBack: 7;", some b!"null"),
  (b!"points clear;", some b!"null"),
  (b!"points get;", some b!"[]")] = true := by decide +kernel

/-- `README.md:1520` -/
example : replay plain [
  (b!"Set<String> create: players;", some b!"null"),
  (b!"players get;", some b!"{}")] = true := by decide +kernel

/-- `README.md:1529` -/
example : replay plain [
  (b!"Set<String> createIfNotExists: players;", some b!"null"),
  (b!"players get;", some b!"{}")] = true := by decide +kernel

/-- `README.md:1539` -/
example : replay plain [
  (b!"Set<String> create: players;", some b!"null"),
  (b!"players get;", some b!"{}")] = true := by decide +kernel

/-- `README.md:1548` -/
example : replay plain [
  (b!"Set<String> create: players;", some b!"null"),
  (b!"players isEmpty?;", some b!"true"),
  (b!"players add: \"Babe Ruth\";", some b!"null"),
  (b!"players isEmpty?;", some b!"false")] = true := by decide +kernel

/-- `README.md:1561` -/
example : replay plain [
  (b!"Set<String> create: players;", some b!"null"),
  (b!"players contains? \"Babe Ruth\";", some b!"false"),
  (b!"players add: \"Babe Ruth\";", some b!"null"),
  (b!"players contains? \"Babe Ruth\";", some b!"true")] = true := by decide +kernel

/-- `README.md:1574` -/
example : replay plain [
  (b!"Set<String> create: players;", some b!"null"),
  (b!"players add: \"Babe Ruth\";", some b!"null"),
  (b!"players add: \"David Ortiz\";", some b!"null"),
  (b!"players add: \"Paulo Orlando\";", some b!"null"),
  (b!"players size;", some b!"3")] = true := by decide +kernel

/-- `README.md:1589` -/
example : replay plain [
  (b!"Set<String> create: players;", some b!"null"),
  (b!"players add: \"Babe Ruth\";", some b!"null"),
  (b!"players get;", some b!"{\"Babe Ruth\"}")] = true := by decide +kernel

/-- `README.md:1600` -/
example : replay plain [
  (b!"Set<String> create: players;", some b!"null"),
  (b!"players add: \"Babe Ruth\";", some b!"null"),
  (b!"players remove: \"Babe Ruth\";", some b!"null"),
  (b!"players get;", some b!"{}")] = true := by decide +kernel

/-- `README.md:1613` -/
example : replay plain [
  (b!"Set<String> create: players;", some b!"null"),
  (b!"players add: \"Babe Ruth\";", some b!"null"),
  (b!"players add: \"David Ortiz\";", some b!"null"),
  (b!"players add: \"Paulo Orlando\";", some b!"null"),
  (b!"players clear;", some b!"null"),
  (b!"players get;", some b!"{}")] = true := by decide +kernel

/-- `README.md:1634` -/
example : replay plain [
  (b!"Dictionary<String, Float> create: ERAs;", some b!"null"),
  (b!"ERAs get;", some b!"()")] = true := by decide +kernel

/-- `README.md:1643` -/
example : replay plain [
  (b!"Dictionary<String, Float> createIfNotExists: ERAs;", some b!"null"),
  (b!"ERAs get;", some b!"()")] = true := by decide +kernel

/-- `README.md:1653` -/
example : replay plain [
  (b!"Dictionary<String, Float> create: ERAs;", some b!"null"),
  (b!"ERAs get;", some b!"()")] = true := by decide +kernel

/-- `README.md:1662` -/
example : replay plain [
  (b!"Dictionary<String, Float> create: ERAs;", some b!"null"),
  (b!"ERAs isEmpty?;", some b!"true"),
  (b!"ERAs associateValue: 1.82 withKey: \"Ed Walsh\";", some b!"null"),
  (b!"ERAs isEmpty?;", some b!"false")] = true := by decide +kernel

/-- `README.md:1675` -/
example : replay plain [
  (b!"Dictionary<String, Float> create: ERAs;", some b!"null"),
  (b!"ERAs containsKey? \"Ed Walsh\";", some b!"false"),
  (b!"ERAs associateValue: 1.82 withKey: \"Ed Walsh\";", some b!"null"),
  (b!"ERAs containsKey? \"Ed Walsh\";", some b!"true")] = true := by decide +kernel

/-- `README.md:1688` -/
example : replay plain [
  (b!"Dictionary<String, Float> create: ERAs;", some b!"null"),
  (b!"ERAs size;", some b!"0"),
  (b!"ERAs associateValue: 1.82 withKey: \"Ed Walsh\";", some b!"null"),
  (b!"ERAs size;", some b!"1")] = true := by decide +kernel

/-- `README.md:1701` -/
example : replay plain [
  (b!"Dictionary<String, Float> create: ERAs;", some b!"null"),
  (b!"ERAs associateValue: 1.82 withKey: \"Ed Walsh\";", some b!"null"),
  (b!"ERAs associateValue: 2.21 withKey: \"Mariano Rivera\";", some b!"null"),
  (b!"ERAs associateValue: 2.39 withKey: \"Clayton Kershaw\";", some b!"null"),
  (b!"ERAs keys;", some b!"[\"Clayton Kershaw\",\"Ed Walsh\",\"Mariano Rivera\"]")] = true := by decide +kernel

/-- `README.md:1716` -/
example : replay plain [
  (b!"Dictionary<String, Float> create: ERAs;", some b!"null"),
  (b!"ERAs associateValue: 1.82 withKey: \"Ed Walsh\";", some b!"null"),
  (b!"ERAs associateValue: 2.21 withKey: \"Mariano Rivera\";", some b!"null"),
  (b!"ERAs associateValue: 2.39 withKey: \"Clayton Kershaw\";", some b!"null"),
  (b!"ERAs values;", some b!"[2.390,1.820,2.210]")] = true := by decide +kernel

/-- `README.md:1731` -/
example : replay plain [
  (b!"Dictionary<String, Float> create: ERAs;", some b!"null"),
  (b!"ERAs associateValue: 1.82 withKey: \"Ed Walsh\";", some b!"null"),
  (b!"ERAs getValueForKey: \"Ed Walsh\";", some b!"1.820")] = true := by decide +kernel

/- The manual prints `1.82` here; with three decimals it is `1.820`. -/
/-- `README.md:1742` -/
example : replay plain [
  (b!"Dictionary<String, Float> create: ERAs;", some b!"null"),
  (b!"ERAs associateValue: 1.82 withKey: \"Ed Walsh\";", some b!"null"),
  (b!"ERAs get;", some b!"((\"Ed Walsh\",1.820))")] = true := by decide +kernel

/-- `README.md:1753` -/
example : replay plain [
  (b!"Dictionary<String, Float> create: ERAs;", some b!"null"),
  (b!"ERAs associateValue: 1.82 withKey: \"Ed Walsh\";", some b!"null"),
  (b!"ERAs removeKey: \"Ed Walsh\";", some b!"null"),
  (b!"ERAs get;", some b!"()")] = true := by decide +kernel

/-- `README.md:1766` -/
example : replay plain [
  (b!"Dictionary<String, Float> create: ERAs;", some b!"null"),
  (b!"ERAs associateValue: 1.82 withKey: \"Ed Walsh\";", some b!"null"),
  (b!"ERAs associateValue: 2.21 withKey: \"Mariano Rivera\";", some b!"null"),
  (b!"ERAs associateValue: 2.39 withKey: \"Clayton Kershaw\";", some b!"null"),
  (b!"ERAs clear;", some b!"null"),
  (b!"ERAs get;", some b!"()")] = true := by decide +kernel

/-- `README.md:1787` -/
example : replay plain [
  (b!"Boolean create: std::bool withValue: true;", some b!"null"),
  (b!"Integer create: mynamespace::i withValue: 42;", some b!"null"),
  (b!"Context listNamespaces;", some b!"[mynamespace,std]")] = true := by decide +kernel

/-- `README.md:1798` -/
example : replay plain [
  (b!"Boolean create: std::bool withValue: true;", some b!"null"),
  (b!"Integer create: i withValue: 42;", some b!"null"),
  (b!"Context listVariables;", some b!"[i,std::bool]")] = true := by decide +kernel

/-- `README.md:1809` -/
example : replay plain [
  (b!"Boolean create: std::bool withValue: true;", some b!"null"),
  (b!"Character create: std::char withValue: 'a';", some b!"null"),
  (b!"Integer create: mynamespace::i withValue: 42;", some b!"null"),
  (b!"Context listVariablesOfNamespace: std;", some b!"[std::bool,std::char]")] = true := by decide +kernel

/-- `README.md:1822` -/
example : replay plain [
  (b!"Boolean create: bool withValue: true;", some b!"null"),
  (b!"Integer create: i withValue: 42;", some b!"null"),
  (b!"Context deleteVariable: bool;", some b!"null"),
  (b!"Context listVariables;", some b!"[i]")] = true := by decide +kernel

/-- `README.md:1835` -/
example : replay plain [
  (b!"Boolean create: std::bool withValue: true;", some b!"null"),
  (b!"Character create: std::char withValue: 'a';", some b!"null"),
  (b!"Integer create: i withValue: 42;", some b!"null"),
  (b!"Context deleteVariablesOfNamespace: std;", some b!"null"),
  (b!"Context listVariables;", some b!"[i]")] = true := by decide +kernel

/-- `README.md:1850` -/
example : replay plain [
  (b!"Context setFloatPrecision: 5;", some b!"null"),
  (b!"Context getFloatPrecision;", some b!"5")] = true := by decide +kernel

/-- `README.md:1859` -/
example : replay plain [
  (b!"Float create: f withValue: 0.1;", some b!"null"),
  (b!"Context setFloatPrecision: 5;", some b!"null"),
  (b!"f get;", some b!"0.10000")] = true := by decide +kernel

/-- `README.md:1870` -/
example : replay plain [
  (b!"Context setFloatComparisonTolerance: 1e-3;", some b!"null"),
  (b!"Context getFloatComparisonTolerance;", some b!"0.001")] = true := by decide +kernel

/-- `README.md:1879` -/
example : replay plain [
  (b!"Float create: f withValue: 0.0;", some b!"null"),
  (b!"Context setFloatComparisonTolerance: 1.0;", some b!"null"),
  (b!"f isEqualTo? 0.9;", some b!"true"),
  (b!"Context setFloatComparisonTolerance: 1e-3;", some b!"null"),
  (b!"f isEqualTo? 0.9;", some b!"false")] = true := by decide +kernel

/-- `README.md:1898`: on a connection, with the password "password". -/
example : (match @execute insertionStdSort b!"password" plain (some (Session.init b!"password")) b!"Connection authenticateWithPassword: \"password\";" with
  | .done (_, some s, o) => s.authed && o == b!"null" | _ => false) = true := by decide +kernel

/-- `README.md:1905`: the context answers `null`, and the connection is closed. -/
example : (match @execute insertionStdSort [] plain (some (Session.init [])) b!"Connection close;" with
  | .done (_, some s, o) => !s.connected && o == b!"null" | _ => false) = true := by decide +kernel

end Knuckle.Validation
