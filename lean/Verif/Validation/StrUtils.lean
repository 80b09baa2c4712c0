/-
The expectations of tests/str_utils_test.cpp.

Generated by tools/validation.py.  These are tests of the model, checked by the kernel; they are not part of the proofs.
-/
import Verif.Model.StrUtils

namespace Knuckle.Validation

/-- `tests/str_utils_test.cpp:30` -/
example : (ltrim [] == [] &&
  ltrim b!" " == [] &&
  ltrim b!"  " == [] &&
  ltrim b!"Integer" == b!"Integer" &&
  ltrim b!" Integer" == b!"Integer" &&
  ltrim b!"Integer " == b!"Integer " &&
  ltrim b!" Integer " == b!"Integer ") = true := by decide +kernel

/-- `tests/str_utils_test.cpp:40` -/
example : (rtrim [] == [] &&
  rtrim b!" " == [] &&
  rtrim b!"  " == [] &&
  rtrim b!"Integer" == b!"Integer" &&
  rtrim b!" Integer" == b!" Integer" &&
  rtrim b!"Integer " == b!"Integer" &&
  rtrim b!" Integer " == b!" Integer") = true := by decide +kernel

/-- `tests/str_utils_test.cpp:50` -/
example : (trim [] == [] &&
  trim b!" " == [] &&
  trim b!"  " == [] &&
  trim b!"Integer" == b!"Integer" &&
  trim b!" Integer" == b!"Integer" &&
  trim b!"Integer " == b!"Integer" &&
  trim b!" Integer " == b!"Integer") = true := by decide +kernel

/-- `tests/str_utils_test.cpp:60` -/
example : (escape 97 [] == [] &&
  escape 108 b!"knuckleball" == b!"knuck\\leba\\l\\l" &&
  escape 108 b!"\\knuckleball" == b!"\\knuck\\leba\\l\\l") = true := by decide +kernel

/-- `tests/str_utils_test.cpp:66` -/
example : (unescape 97 [] == [] &&
  unescape 108 b!"\\knuck\\leba\\l\\l" == b!"\\knuckleball" &&
  unescape 107 b!"\\knuck\\leba\\l\\l" == b!"knuck\\leba\\l\\l") = true := by decide +kernel

/-- `tests/str_utils_test.cpp:72` -/
example : (isSpace 32 == true &&
  isSpace 10 == true &&
  isSpace 9 == true) = true := by decide +kernel

/-- `tests/str_utils_test.cpp:78` -/
example : (isSpace 48 == false &&
  isSpace 57 == false &&
  isSpace 97 == false &&
  isSpace 122 == false &&
  isSpace 65 == false &&
  isSpace 90 == false &&
  isSpace 44 == false) = true := by decide +kernel

/-- `tests/str_utils_test.cpp:88` -/
example : (isAlpha 97 == true &&
  isAlpha 122 == true &&
  isAlpha 65 == true &&
  isAlpha 90 == true) = true := by decide +kernel

/-- `tests/str_utils_test.cpp:95` -/
example : (isAlpha 32 == false &&
  isAlpha 48 == false &&
  isAlpha 57 == false &&
  isAlpha 44 == false) = true := by decide +kernel

/-- `tests/str_utils_test.cpp:102` -/
example : (isNumeric 48 == true &&
  isNumeric 57 == true) = true := by decide +kernel

/-- `tests/str_utils_test.cpp:107` -/
example : (isNumeric 32 == false &&
  isNumeric 97 == false &&
  isNumeric 122 == false &&
  isNumeric 65 == false &&
  isNumeric 90 == false &&
  isNumeric 44 == false) = true := by decide +kernel

/-- `tests/str_utils_test.cpp:116` -/
example : (isAlphanumeric 97 == true &&
  isAlphanumeric 122 == true &&
  isAlphanumeric 65 == true &&
  isAlphanumeric 90 == true &&
  isAlphanumeric 48 == true &&
  isAlphanumeric 57 == true) = true := by decide +kernel

/-- `tests/str_utils_test.cpp:125` -/
example : (isAlphanumeric 32 == false &&
  isAlphanumeric 44 == false) = true := by decide +kernel

/-- `tests/str_utils_test.cpp:130` -/
example : (startsWith [] [] == true &&
  startsWith b!"knuckleball" [] == true &&
  startsWith b!"knuckleball" b!"knuckleball" == true &&
  startsWith b!"knuckleball" b!"knuckle" == true) = true := by decide +kernel

/-- `tests/str_utils_test.cpp:137` -/
example : (startsWith [] b!"knuckleball" == false &&
  startsWith b!"knuckleball" b!"ball" == false) = true := by decide +kernel

/-- `tests/str_utils_test.cpp:142` -/
example : (endsWith [] [] == true &&
  endsWith b!"knuckleball" [] == true &&
  endsWith b!"knuckleball" b!"knuckleball" == true &&
  endsWith b!"knuckleball" b!"ball" == true) = true := by decide +kernel

/-- `tests/str_utils_test.cpp:149` -/
example : (endsWith [] b!"knuckleball" == false &&
  endsWith b!"knuckleball" b!"knuckle" == false) = true := by decide +kernel

/-- `tests/str_utils_test.cpp:154` -/
example : (removeSpaces [] == [] &&
  removeSpaces b!" " == [] &&
  removeSpaces b!"knuckleball" == b!"knuckleball" &&
  removeSpaces [32, 107, 110, 117, 99, 107, 108, 101, 10, 98, 97, 108, 108, 9] == b!"knuckleball") = true := by decide +kernel

end Knuckle.Validation
