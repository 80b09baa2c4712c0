/-
Model of `src/str_utils.cpp`.

Platform assumption: `isspace` is the one of the "C" locale of glibc, which also answers "no" for the bytes above 127
that the program passes to it as negative `char`s (strictly, ISO C leaves that call undefined).
-/
import Verif.Model.Bytes

namespace Knuckle

/-- `isspace` in the "C" locale: tab, newline, vertical tab, form feed, carriage return, space.
`str_utils::is_space`, `src/str_utils.cpp:70-72`. -/
def isSpace (c : Byte) : Bool := c == 32 || (decide (9 ≤ c) && decide (c ≤ 13))

/-- `str_utils::is_alpha`, `src/str_utils.cpp:74-76`. -/
def isAlpha (c : Byte) : Bool :=
  (decide (c ≥ c!"a") && decide (c ≤ c!"z")) || (decide (c ≥ c!"A") && decide (c ≤ c!"Z"))

/-- `str_utils::is_numeric`, `src/str_utils.cpp:78-80`. -/
def isNumeric (c : Byte) : Bool := decide (c ≥ c!"0") && decide (c ≤ c!"9")

/-- `str_utils::is_alphanumeric`, `src/str_utils.cpp:82-84`. -/
def isAlphanumeric (c : Byte) : Bool := isAlpha c || isNumeric c

/-- `str_utils::ltrim`, `src/str_utils.cpp:32-37`: the loop advances `i` over leading spaces. -/
def ltrim : Str → Str
  | [] => []
  | c :: cs => if isSpace c then ltrim cs else c :: cs

/-- `str_utils::rtrim`, `src/str_utils.cpp:39-44`: the loop walks from the last byte to the left. -/
def rtrim (s : Str) : Str := (ltrim s.reverse).reverse

/-- `str_utils::trim`, `src/str_utils.cpp:46-48`. -/
def trim (s : Str) : Str := rtrim (ltrim s)

/-- `str_utils::escape`, `src/str_utils.cpp:50-58`. -/
def escape (c : Byte) : Str → Str
  | [] => []
  | x :: xs => if x == c then c!"\\" :: x :: escape c xs else x :: escape c xs

/-- `str_utils::unescape`, `src/str_utils.cpp:60-68`: a backslash directly followed by `c` is dropped. -/
def unescape (c : Byte) : Str → Str
  | [] => []
  | [x] => [x]
  | x :: y :: ys => if x == c!"\\" && y == c then unescape c (y :: ys) else x :: unescape c (y :: ys)

/-- `str_utils::starts_with`, `src/str_utils.cpp:86-93`. -/
def startsWith (s pre : Str) : Bool :=
  if s.length < pre.length then false
  else (List.range pre.length).all fun i => s.getD i 0 == pre.getD i 0

/-- `str_utils::ends_with`, `src/str_utils.cpp:95-102`. -/
def endsWith (s suf : Str) : Bool :=
  if s.length < suf.length then false
  else (List.range suf.length).all fun i => s.getD (s.length - i - 1) 0 == suf.getD (suf.length - i - 1) 0

/-- `str_utils::remove_spaces`, `src/str_utils.cpp:104-112`. -/
def removeSpaces : Str → Str
  | [] => []
  | c :: cs => if isSpace c then removeSpaces cs else c :: removeSpaces cs

/-- `std::string::substr(pos, n)` at call sites where `pos ≤ size()` is guaranteed locally (otherwise see `substrR`). -/
def substr (s : Str) (pos n : Nat) : Str := (s.drop pos).take n

/-- `std::string::substr(pos, n)`: throws `std::out_of_range` when `pos > size()`. -/
def substrR (s : Str) (pos n : Nat) : Res Str :=
  if s.length < pos then .err .unknown else .ok ((s.drop pos).take n)

end Knuckle
