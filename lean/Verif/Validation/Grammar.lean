/-
The expectations of tests/grammar_test.cpp.

Generated by tools/validation.py.  These are tests of the model, checked by the kernel; they are not part of the proofs.
-/
import Verif.Model.Grammar

namespace Knuckle.Validation

/-- `tests/grammar_test.cpp:55` -/
example : (isBooleanValue b!"true" == true &&
  isBooleanValue b!"false" == true) = true := by decide +kernel

/-- `tests/grammar_test.cpp:60` -/
example : (isBooleanValue [] == false &&
  isBooleanValue b!"1" == false &&
  isBooleanValue b!"0" == false &&
  isBooleanValue b!"TRUE" == false &&
  isBooleanValue b!"FALSE" == false &&
  isBooleanValue b!"True" == false &&
  isBooleanValue b!"False" == false &&
  isBooleanValue b!" true" == false &&
  isBooleanValue b!"false " == false) = true := by decide +kernel

/-- `tests/grammar_test.cpp:84` -/
example : (isCharacterValue b!"'a'" == true &&
  isCharacterValue b!"'A'" == true &&
  isCharacterValue b!"'0'" == true &&
  isCharacterValue b!"'#'" == true &&
  isCharacterValue b!"' '" == true &&
  isCharacterValue b!"'''" == true) = true := by decide +kernel

/-- `tests/grammar_test.cpp:93` -/
example : (isCharacterValue [] == false &&
  isCharacterValue b!"''" == false &&
  isCharacterValue b!"'aa'" == false &&
  isCharacterValue b!"'a' " == false &&
  isCharacterValue b!" 'a'" == false) = true := by decide +kernel

/-- `tests/grammar_test.cpp:113` -/
example : (isIntegerValue b!"0" == true &&
  isIntegerValue b!"+0" == true &&
  isIntegerValue b!"-0" == true &&
  isIntegerValue b!"42" == true &&
  isIntegerValue b!"+42" == true &&
  isIntegerValue b!"-42" == true) = true := by decide +kernel

/-- `tests/grammar_test.cpp:122` -/
example : (isIntegerValue [] == false &&
  isIntegerValue b!"+" == false &&
  isIntegerValue b!"-" == false &&
  isIntegerValue b!"42.0" == false &&
  isIntegerValue b!"42e5" == false &&
  isIntegerValue b!" 42" == false &&
  isIntegerValue b!"42 " == false) = true := by decide +kernel

/-- `tests/grammar_test.cpp:144` -/
example : (isFloatValue b!"0" == true &&
  isFloatValue b!"+0" == true &&
  isFloatValue b!"-0" == true &&
  isFloatValue b!"42" == true &&
  isFloatValue b!"+42" == true &&
  isFloatValue b!"-42" == true &&
  isFloatValue b!"42." == true &&
  isFloatValue b!"+42." == true &&
  isFloatValue b!"-42." == true &&
  isFloatValue b!".42" == true &&
  isFloatValue b!"+.42" == true &&
  isFloatValue b!"-.42" == true &&
  isFloatValue b!"42.0" == true &&
  isFloatValue b!"+42.0" == true &&
  isFloatValue b!"-42.0" == true &&
  isFloatValue b!"42e1" == true &&
  isFloatValue b!"42e+1" == true &&
  isFloatValue b!"42e-1" == true &&
  isFloatValue b!"42.0e1" == true &&
  isFloatValue b!"42.0e+1" == true &&
  isFloatValue b!"42.0e-1" == true &&
  isFloatValue b!"42.e1" == true &&
  isFloatValue b!"42.e+1" == true &&
  isFloatValue b!"42.e-1" == true &&
  isFloatValue b!".42e1" == true &&
  isFloatValue b!".42e+1" == true &&
  isFloatValue b!".42e-1" == true) = true := by decide +kernel

/-- `tests/grammar_test.cpp:174` -/
example : (isFloatValue [] == false &&
  isFloatValue b!"+" == false &&
  isFloatValue b!"-" == false &&
  isFloatValue b!"." == false &&
  isFloatValue b!"+." == false &&
  isFloatValue b!"-." == false &&
  isFloatValue b!"42..0" == false &&
  isFloatValue b!"e1" == false &&
  isFloatValue b!"+e1" == false &&
  isFloatValue b!"-e1" == false &&
  isFloatValue b!".e1" == false &&
  isFloatValue b!"+.e1" == false &&
  isFloatValue b!"-.e1" == false &&
  isFloatValue b!"42e1.0" == false &&
  isFloatValue b!" 42.0" == false &&
  isFloatValue b!"42.0 " == false) = true := by decide +kernel

/-- `tests/grammar_test.cpp:205` -/
example : (isStringValue b!"\"\"" == true &&
  isStringValue b!"\"knuckleball\"" == true &&
  isStringValue b!"\"knuckle\\\"ball\"" == true &&
  isStringValue b!"\"\\\\\"" == true) = true := by decide +kernel

/-- `tests/grammar_test.cpp:212` -/
example : (isStringValue [] == false &&
  isStringValue b!"\"" == false &&
  isStringValue b!"\"\"\"" == false &&
  isStringValue b!"\"\"\"\"" == false &&
  isStringValue b!"\"\\\"" == false &&
  isStringValue b!"\"knuckle\"ball\"" == false &&
  isStringValue b!"\"knuckleball" == false &&
  isStringValue b!"knuckleball\"" == false &&
  isStringValue b!" \"\"" == false &&
  isStringValue b!"\"\" " == false) = true := by decide +kernel

/-- `tests/grammar_test.cpp:225` -/
example : (isObjectType b!"Boolean" == true &&
  isObjectType b!"Character" == true &&
  isObjectType b!"Integer" == true &&
  isObjectType b!"Float" == true &&
  isObjectType b!"String" == true) = true := by decide +kernel

/-- `tests/grammar_test.cpp:233` -/
example : (isObjectType b!"Vector" == false &&
  isObjectType b!"Vector<Integer>" == false &&
  isObjectType b!"Set" == false &&
  isObjectType b!"Set<Integer>" == false &&
  isObjectType b!"Dictionary" == false &&
  isObjectType b!"Dictionary<String, Integer>" == false) = true := by decide +kernel

/-- `tests/grammar_test.cpp:242` -/
example : (isObjectValue b!"true" == true &&
  isObjectValue b!"false" == true &&
  isObjectValue b!"'a'" == true &&
  isObjectValue b!"42" == true &&
  isObjectValue b!"42e5" == true &&
  isObjectValue b!"\"knuckleball\"" == true) = true := by decide +kernel

/-- `tests/grammar_test.cpp:251` -/
example : (isObjectValue [] == false &&
  isObjectValue b!"prices" == false &&
  isObjectValue b!"isEmpty?" == false &&
  isObjectValue b!" 42" == false &&
  isObjectValue b!"42 " == false) = true := by decide +kernel

/-- `tests/grammar_test.cpp:259` -/
example : (isVectorType b!"Vector<Boolean>" == true &&
  isVectorType b!"Vector< Character>" == true &&
  isVectorType b!"Vector<Integer >" == true &&
  isVectorType b!"Vector< String >" == true) = true := by decide +kernel

/-- `tests/grammar_test.cpp:266` -/
example : (isVectorType [] == false &&
  isVectorType b!"Vector" == false &&
  isVectorType b!"Vector <Integer>" == false &&
  isVectorType b!"Vector<Vector<Integer>>" == false &&
  isVectorType b!"Vector<Integer, Integer>" == false &&
  isVectorType b!"vector<Integer>" == false &&
  isVectorType b!"VECTOR<Integer>" == false &&
  isVectorType b!" Vector<Integer>" == false &&
  isVectorType b!"Vector<Integer> " == false) = true := by decide +kernel

/-- `tests/grammar_test.cpp:278` -/
example : (isSetType b!"Set<Boolean>" == true &&
  isSetType b!"Set< Character>" == true &&
  isSetType b!"Set<Integer >" == true &&
  isSetType b!"Set< String >" == true) = true := by decide +kernel

/-- `tests/grammar_test.cpp:285` -/
example : (isSetType [] == false &&
  isSetType b!"Set" == false &&
  isSetType b!"Set <Integer>" == false &&
  isSetType b!"Set<Set<Integer>>" == false &&
  isSetType b!"Set<Integer, Integer>" == false &&
  isSetType b!"set<Integer>" == false &&
  isSetType b!"SET<Integer>" == false &&
  isSetType b!" Set<Integer>" == false &&
  isSetType b!"Set<Integer> " == false) = true := by decide +kernel

/-- `tests/grammar_test.cpp:297` -/
example : (isDictionaryType b!"Dictionary<String, Boolean>" == true &&
  isDictionaryType b!"Dictionary< String, Integer>" == true &&
  isDictionaryType b!"Dictionary<String, Float >" == true &&
  isDictionaryType b!"Dictionary< String , String >" == true) = true := by decide +kernel

/-- `tests/grammar_test.cpp:304` -/
example : (isDictionaryType [] == false &&
  isDictionaryType b!"Dictionary" == false &&
  isDictionaryType b!"Dictionary <String, Integer>" == false &&
  isDictionaryType b!"Dictionary<String, Set<Integer>>" == false &&
  isDictionaryType b!"Dictionary<Set<Integer>, String>" == false &&
  isDictionaryType b!"Dictionary<Integer>" == false &&
  isDictionaryType b!"dictionary<String, Integer>" == false &&
  isDictionaryType b!"DICTIONARY<String, Integer>" == false &&
  isDictionaryType b!" Dictionary<String, Integer>" == false &&
  isDictionaryType b!"Dictionary<String, Integer> " == false) = true := by decide +kernel

/-- `tests/grammar_test.cpp:317` -/
example : (isContainerType b!"Vector<Boolean>" == true &&
  isContainerType b!"Set<Character>" == true &&
  isContainerType b!"Dictionary<String, Float>" == true) = true := by decide +kernel

/-- `tests/grammar_test.cpp:323` -/
example : (isContainerType b!"Boolean" == false &&
  isContainerType b!"Character" == false &&
  isContainerType b!"Integer" == false &&
  isContainerType b!"Float" == false &&
  isContainerType b!"String" == false) = true := by decide +kernel

/-- `tests/grammar_test.cpp:331` -/
example : (isType b!"Boolean" == true &&
  isType b!"Character" == true &&
  isType b!"Integer" == true &&
  isType b!"Float" == true &&
  isType b!"String" == true &&
  isType b!"Vector<Boolean>" == true &&
  isType b!"Set<Character>" == true &&
  isType b!"Dictionary<String, Integer>" == true) = true := by decide +kernel

/-- `tests/grammar_test.cpp:342` -/
example : (isType [] == false &&
  isType b!"42" == false &&
  isType b!"prices" == false &&
  isType b!"isEmpty?" == false &&
  isType b!" Integer" == false &&
  isType b!"Vector<Integer> " == false) = true := by decide +kernel

/-- `tests/grammar_test.cpp:351` -/
example : (isConnection b!"Connection" == true) = true := by decide +kernel

/-- `tests/grammar_test.cpp:355` -/
example : (isConnection [] == false &&
  isConnection b!"connection" == false &&
  isConnection b!"CONNECTION" == false &&
  isConnection b!" Connection" == false &&
  isConnection b!"Connection " == false) = true := by decide +kernel

/-- `tests/grammar_test.cpp:363` -/
example : (isContext b!"Context" == true) = true := by decide +kernel

/-- `tests/grammar_test.cpp:367` -/
example : (isContext [] == false &&
  isContext b!"context" == false &&
  isContext b!"CONTEXT" == false &&
  isContext b!" Context" == false &&
  isContext b!"Context " == false) = true := by decide +kernel

/-- `tests/grammar_test.cpp:375` -/
example : (isReservedWord b!"null" == true &&
  isReservedWord b!"true" == true &&
  isReservedWord b!"false" == true &&
  isReservedWord b!"Connection" == true &&
  isReservedWord b!"Context" == true &&
  isReservedWord b!"Boolean" == true &&
  isReservedWord b!"Character" == true &&
  isReservedWord b!"Integer" == true &&
  isReservedWord b!"Float" == true &&
  isReservedWord b!"String" == true &&
  isReservedWord b!"Vector" == true &&
  isReservedWord b!"Set" == true &&
  isReservedWord b!"Dictionary" == true) = true := by decide +kernel

/-- `tests/grammar_test.cpp:391` -/
example : (isReservedWord [] == false &&
  isReservedWord b!"42" == false &&
  isReservedWord b!"prices" == false &&
  isReservedWord b!"isEmpty?" == false &&
  isReservedWord b!" Integer" == false &&
  isReservedWord b!"Vector " == false) = true := by decide +kernel

/-- `tests/grammar_test.cpp:400` -/
example : (isIdentifier b!"i" == true &&
  isIdentifier b!"id" == true &&
  isIdentifier b!"id2016" == true &&
  isIdentifier b!"id_2016" == true) = true := by decide +kernel

/-- `tests/grammar_test.cpp:407` -/
example : (isIdentifier [] == false &&
  isIdentifier b!"null" == false &&
  isIdentifier b!"true" == false &&
  isIdentifier b!"false" == false &&
  isIdentifier b!"Connection" == false &&
  isIdentifier b!"Context" == false &&
  isIdentifier b!"Boolean" == false &&
  isIdentifier b!"Character" == false &&
  isIdentifier b!"Integer" == false &&
  isIdentifier b!"Float" == false &&
  isIdentifier b!"String" == false &&
  isIdentifier b!"Vector" == false &&
  isIdentifier b!"Set" == false &&
  isIdentifier b!"Dictionary" == false &&
  isIdentifier b!"_id" == false &&
  isIdentifier b!"2016id" == false &&
  isIdentifier b!" id" == false &&
  isIdentifier b!"id " == false) = true := by decide +kernel

/-- `tests/grammar_test.cpp:428` -/
example : (isNamespace b!"s" == true &&
  isNamespace b!"std" == true &&
  isNamespace b!"std2016" == true &&
  isNamespace b!"std_2016" == true) = true := by decide +kernel

/-- `tests/grammar_test.cpp:435` -/
example : (isNamespace [] == false &&
  isNamespace b!"null" == false &&
  isNamespace b!"true" == false &&
  isNamespace b!"false" == false &&
  isNamespace b!"Connection" == false &&
  isNamespace b!"Context" == false &&
  isNamespace b!"Boolean" == false &&
  isNamespace b!"Character" == false &&
  isNamespace b!"Integer" == false &&
  isNamespace b!"Float" == false &&
  isNamespace b!"String" == false &&
  isNamespace b!"Vector" == false &&
  isNamespace b!"Set" == false &&
  isNamespace b!"Dictionary" == false &&
  isNamespace b!"std:" == false &&
  isNamespace b!"_std" == false &&
  isNamespace b!"2016std" == false &&
  isNamespace b!" std" == false &&
  isNamespace b!"std " == false) = true := by decide +kernel

/-- `tests/grammar_test.cpp:457` -/
example : (isVariable b!"i" == true &&
  isVariable b!"prices" == true &&
  isVariable b!"prices2016" == true &&
  isVariable b!"prices_2016" == true &&
  isVariable b!"std::i" == true &&
  isVariable b!"std::prices" == true &&
  isVariable b!"std::prices2016" == true &&
  isVariable b!"std::prices_2016" == true) = true := by decide +kernel

/-- `tests/grammar_test.cpp:468` -/
example : (isVariable [] == false &&
  isVariable b!"null" == false &&
  isVariable b!"true" == false &&
  isVariable b!"false" == false &&
  isVariable b!"Connection" == false &&
  isVariable b!"Context" == false &&
  isVariable b!"Boolean" == false &&
  isVariable b!"Character" == false &&
  isVariable b!"Integer" == false &&
  isVariable b!"Float" == false &&
  isVariable b!"String" == false &&
  isVariable b!"Vector" == false &&
  isVariable b!"Set" == false &&
  isVariable b!"Dictionary" == false &&
  isVariable b!"std::" == false &&
  isVariable b!"::std" == false &&
  isVariable b!"std:::" == false &&
  isVariable b!"std:::prices" == false &&
  isVariable b!"_prices" == false &&
  isVariable b!"std::_prices" == false &&
  isVariable b!"2016prices" == false &&
  isVariable b!"std::2016prices" == false &&
  isVariable b!"std:prices" == false &&
  isVariable b!"std_one::std_two::prices" == false &&
  isVariable b!" prices" == false &&
  isVariable b!"prices " == false) = true := by decide +kernel

/-- `tests/grammar_test.cpp:497` -/
example : (isActor b!"Connection" == true &&
  isActor b!"Context" == true &&
  isActor b!"Boolean" == true &&
  isActor b!"Character" == true &&
  isActor b!"Integer" == true &&
  isActor b!"Float" == true &&
  isActor b!"String" == true &&
  isActor b!"Vector<Boolean>" == true &&
  isActor b!"Set<Float>" == true &&
  isActor b!"Dictionary<String, Integer>" == true &&
  isActor b!"prices" == true &&
  isActor b!"prices2016" == true &&
  isActor b!"prices_2016" == true &&
  isActor b!"std::prices" == true &&
  isActor b!"std::prices2016" == true &&
  isActor b!"std::prices_2016" == true) = true := by decide +kernel

/-- `tests/grammar_test.cpp:516` -/
example : (isActor [] == false &&
  isActor b!"42" == false &&
  isActor b!"isEmpty?" == false &&
  isActor b!" prices" == false &&
  isActor b!"prices " == false) = true := by decide +kernel

/-- `tests/grammar_test.cpp:524` -/
example : (isUnaryMessage b!"get" == true &&
  isUnaryMessage b!"isEmpty?" == true) = true := by decide +kernel

/-- `tests/grammar_test.cpp:529` -/
example : (isUnaryMessage [] == false &&
  isUnaryMessage b!"42" == false &&
  isUnaryMessage b!"get:" == false &&
  isUnaryMessage b!" get" == false &&
  isUnaryMessage b!"get " == false) = true := by decide +kernel

/-- `tests/grammar_test.cpp:537` -/
example : (isKeywordMessageToken b!"withValue:" == true &&
  isKeywordMessageToken b!"isEqualTo?" == true) = true := by decide +kernel

/-- `tests/grammar_test.cpp:542` -/
example : (isKeywordMessageToken [] == false &&
  isKeywordMessageToken b!"42:" == false &&
  isKeywordMessageToken b!"true?" == false &&
  isKeywordMessageToken b!"withValue" == false &&
  isKeywordMessageToken b!" withValue:" == false &&
  isKeywordMessageToken b!"withValue: " == false) = true := by decide +kernel

/-- `tests/grammar_test.cpp:551` -/
example : (isKeywordMessageArgument b!"42" == true &&
  isKeywordMessageArgument b!"std" == true &&
  isKeywordMessageArgument b!"std::prices" == true) = true := by decide +kernel

/-- `tests/grammar_test.cpp:557` -/
example : (isKeywordMessageArgument [] == false &&
  isKeywordMessageArgument b!"Connection" == false &&
  isKeywordMessageArgument b!"Context" == false &&
  isKeywordMessageArgument b!"Boolean" == false &&
  isKeywordMessageArgument b!"Vector" == false &&
  isKeywordMessageArgument b!"withValue:" == false &&
  isKeywordMessageArgument b!"isEmpty?" == false &&
  isKeywordMessageArgument b!" 42" == false &&
  isKeywordMessageArgument b!"42 " == false) = true := by decide +kernel

/-- `tests/grammar_test.cpp:569` -/
example : (isKeywordMessagePart b!"withValue: 42" == true &&
  isKeywordMessagePart b!"create: std::prices" == true &&
  isKeywordMessagePart b!"deleteVariablesOfNamespace: std" == true) = true := by decide +kernel

/-- `tests/grammar_test.cpp:575` -/
example : (isKeywordMessagePart b!"withValue:42" == true &&
  isKeywordMessagePart b!"create:   std::prices" == true) = true := by decide +kernel

/-- `tests/grammar_test.cpp:580` -/
example : (isKeywordMessagePart [] == false &&
  isKeywordMessagePart b!"get" == false &&
  isKeywordMessagePart b!"withValue:" == false &&
  isKeywordMessagePart b!"withValue 42" == false &&
  isKeywordMessagePart b!"withValue: Integer" == false &&
  isKeywordMessagePart b!"create: withValue:" == false &&
  isKeywordMessagePart b!" withValue: 42" == false &&
  isKeywordMessagePart b!"withValue: 42 " == false) = true := by decide +kernel

/-- `tests/grammar_test.cpp:591` -/
example : (isKeywordMessage b!"isEqualTo? 42" == true &&
  isKeywordMessage b!"create: i withValue: 42" == true) = true := by decide +kernel

/-- `tests/grammar_test.cpp:596` -/
example : (isKeywordMessage b!"isEqualTo?42" == true &&
  isKeywordMessage b!"create: i   withValue: 42" == true) = true := by decide +kernel

/-- `tests/grammar_test.cpp:601` -/
example : (isKeywordMessage [] == false &&
  isKeywordMessage b!"get" == false &&
  isKeywordMessage b!"isEmpty?" == false &&
  isKeywordMessage b!"withValue 42" == false &&
  isKeywordMessage b!"create: withValue:" == false &&
  isKeywordMessage b!"create: i withValue:" == false &&
  isKeywordMessage b!"create: i 42" == false &&
  isKeywordMessage b!"i withValue: 42" == false &&
  isKeywordMessage b!" create: i withValue: 42" == false &&
  isKeywordMessage b!"create: i withValue: 42 " == false) = true := by decide +kernel

/-- `tests/grammar_test.cpp:614` -/
example : (isStatement b!"Connection close;" == true &&
  isStatement b!"Context listVariables;" == true &&
  isStatement b!"Integer create: i withValue: 42;" == true &&
  isStatement b!"Dictionary<String, Integer> create: ages;" == true &&
  isStatement b!"i isEqualTo? 42;" == true) = true := by decide +kernel

/-- `tests/grammar_test.cpp:622` -/
example : (isStatement b!"Integer create:i withValue:42;" == true &&
  isStatement b!"  Integer  create:  i   withValue:  42  ;  " == true) = true := by decide +kernel

/-- `tests/grammar_test.cpp:627` -/
example : (isStatement [] == false &&
  isStatement b!";" == false &&
  isStatement b!"true;" == false &&
  isStatement b!"42 get;" == false &&
  isStatement b!"Integer create: i" == false &&
  isStatement b!"Integer create: ;" == false &&
  isStatement b!"create: i withValue: 42;" == false) = true := by decide +kernel

end Knuckle.Validation
