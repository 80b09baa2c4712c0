/-
Model of the floating-point arithmetic the program uses (`float`, `double`, `atof`, conversions, `std::fixed` output).

Nothing here is code of the repository: it is the behaviour of the platform that `src/instance.cpp` relies on, namely
IEEE 754 binary32/binary64 arithmetic with rounding to nearest even and no excess precision (x86-64 with SSE2,
`FLT_EVAL_METHOD = 0`, `-std=c++11` so no contraction to fused operations), glibc's correctly rounded `strtod`, and
glibc/libstdc++'s exact `%.*f`.  It is part of the trusted base (see DESIGN.md).

Every finite value is a sign and a magnitude counted in units of 2^-1074, the smallest positive double; both formats use
the same unit, so the conversion from `float` to `double` is the identity.
-/
import Verif.Model.StrUtils

namespace Knuckle

/-- A `float` or `double`: `fin neg k` is (-1)^neg * k * 2^-1074. -/
inductive Fl
  | fin (neg : Bool) (k : Nat)
  | inf (neg : Bool)
  | nan
deriving DecidableEq, Repr

/-- The number of units in 1.0. -/
def oneK : Nat := 2 ^ 1074

/-- The integer nearest to `n / d`, ties to even. -/
def rhe (n d : Nat) : Nat :=
  let q := n / d
  let r := n % d
  if 2 * r < d then q else if d < 2 * r then q + 1 else if q % 2 = 0 then q else q + 1

/-- Number of binary digits. -/
def bitLen (n : Nat) : Nat := if n = 0 then 0 else n.log2 + 1

/-- A binary format: precision in bits, exponent of the grid of the smallest numbers (in units), overflow threshold. -/
structure Fmt where
  p : Nat
  g : Nat
  lim : Nat

/-- binary64 (`double`): 53 bits, unit grid, values from 2^1024 on overflow. -/
def f64 : Fmt := ⟨53, 0, 2 ^ 2098⟩

/-- binary32 (`float`): 24 bits, grid 2^-149 = 2^925 units, values from 2^128 on overflow. -/
def f32 : Fmt := ⟨24, 925, 2 ^ 1202⟩

/-- Rounding of the magnitude `n / d` (in units) to the format, exponent range unbounded above. -/
def Fmt.roundMag (f : Fmt) (n d : Nat) : Nat :=
  let s := max f.g (bitLen (n / d) - f.p)
  rhe n (d * 2 ^ s) * 2 ^ s

/-- Rounding to the format, with overflow to infinity. -/
def Fmt.round (f : Fmt) (neg : Bool) (n d : Nat) : Fl :=
  if f.lim ≤ f.roundMag n d then .inf neg else .fin neg (f.roundMag n d)

/-- Signed magnitude as an integer. -/
def sgn (neg : Bool) (k : Nat) : Int := if neg then -(k : Int) else (k : Int)

/-- Unary minus. -/
def Fl.neg : Fl → Fl
  | .fin s k => .fin (!s) k
  | .inf s => .inf (!s)
  | .nan => .nan

/-- Addition, rounded to the format. -/
def Fl.add (f : Fmt) : Fl → Fl → Fl
  | .nan, _ => .nan
  | _, .nan => .nan
  | .inf a, .inf b => if a == b then .inf a else .nan
  | .inf a, .fin _ _ => .inf a
  | .fin _ _, .inf b => .inf b
  | .fin a j, .fin b k =>
    let z := sgn a j + sgn b k
    if z = 0 then .fin (a && b) 0 else f.round (decide (z < 0)) z.natAbs 1

/-- Subtraction, rounded to the format. -/
def Fl.sub (f : Fmt) (x y : Fl) : Fl := Fl.add f x y.neg

/-- Multiplication, rounded to the format. -/
def Fl.mul (f : Fmt) : Fl → Fl → Fl
  | .nan, _ => .nan
  | _, .nan => .nan
  | .inf a, .inf b => .inf (a != b)
  | .inf a, .fin b k => if k = 0 then .nan else .inf (a != b)
  | .fin a j, .inf b => if j = 0 then .nan else .inf (a != b)
  | .fin a j, .fin b k => f.round (a != b) (j * k) oneK

/-- Division, rounded to the format. -/
def Fl.div (f : Fmt) : Fl → Fl → Fl
  | .nan, _ => .nan
  | _, .nan => .nan
  | .inf _, .inf _ => .nan
  | .inf a, .fin b _ => .inf (a != b)
  | .fin a _, .inf b => .fin (a != b) 0
  | .fin a j, .fin b k =>
    if k = 0 then (if j = 0 then .nan else .inf (a != b)) else f.round (a != b) (j * oneK) k

/-- The comparison `x < y`. -/
def Fl.lt : Fl → Fl → Bool
  | .nan, _ => false
  | _, .nan => false
  | .inf a, .inf b => a && !b
  | .inf a, .fin _ _ => a
  | .fin _ _, .inf b => !b
  | .fin a j, .fin b k => decide (sgn a j < sgn b k)

/-- Conversion `double` to `float` (rounds; overflows to infinity as IEEE 754 prescribes). -/
def Fl.toF32 : Fl → Fl
  | .fin s k => f32.round s k 1
  | x => x

/-- Conversion `int` to `double`. -/
def ofInt64 (n : Int) : Fl := f64.round (decide (n < 0)) (n.natAbs * oneK) 1

/-- Conversion `int` to `float`. -/
def ofInt32 (n : Int) : Fl := f32.round (decide (n < 0)) (n.natAbs * oneK) 1

/-- The range of `int`. -/
def inInt (n : Int) : Prop := -2147483648 ≤ n ∧ n ≤ 2147483647

instance (n : Int) : Decidable (inInt n) := by unfold inInt; infer_instance

/-- Conversion `double` to `int`: truncation toward zero; undefined when the truncated value is not an `int`. -/
def Fl.toInt : Fl → Res Int
  | .fin s k =>
    let v := sgn s (k / oneK)
    if inInt v then .ok v else .ub
  | _ => .ub

/-! ### Decimal text -/

/-- Value of a string of digits. -/
def digitsVal (s : Str) : Nat := s.foldl (fun a c => a * 10 + (c.toNat - 48)) 0

/-- The digits at the front of a string. -/
def spanDigits : Str → Str × Str
  | [] => ([], [])
  | c :: cs => if isNumeric c then ((c :: (spanDigits cs).1), (spanDigits cs).2) else ([], c :: cs)

/-- Optional sign at the front of a string. -/
def spanSign : Str → Bool × Str
  | [] => (false, [])
  | c :: cs => if c == c!"-" then (true, cs) else if c == c!"+" then (false, cs) else (false, c :: cs)

/-- The mathematical value of `[sign] digits` at the front of a string (no conversion to a machine type). -/
def decInt (s : Str) : Int :=
  let (neg, r) := spanSign s
  sgn neg (digitsVal (spanDigits r).1)

/-- C `atoi` on a text accepted by `is_integer_value` (so without leading spaces): undefined when the value is not an
`int` (ISO C 7.22.1). -/
def atoi (s : Str) : Res Int := if inInt (decInt s) then .ok (decInt s) else .ub

/-- Rounding of `mant * 10^e` (a decimal number) to a double. -/
def roundDec (neg : Bool) (mant : Nat) (e : Int) : Fl :=
  if 0 ≤ e then f64.round neg (mant * 10 ^ e.toNat * oneK) 1
  else f64.round neg (mant * oneK) (10 ^ (-e).toNat)

/-- The pieces `[sign] digits [. digits] [e [sign] digits]` of a decimal text: sign, all digits of the mantissa, the
number of them after the point, the exponent. -/
def decParts (s : Str) : Bool × Str × Nat × Int :=
  let (neg, r) := spanSign s
  let (ip, r) := spanDigits r
  let (fp, r) := match r with
    | c :: cs => if c == c!"." then spanDigits cs else ([], r)
    | [] => ([], [])
  let ex : Int := match r with
    | c :: cs => if c == c!"e" then decInt cs else 0
    | [] => 0
  (neg, ip ++ fp, fp.length, ex)

/-- C `atof` on a text accepted by `is_float_value` (so no leading spaces, no hexadecimal form, no `inf`/`nan`). -/
def atof (s : Str) : Fl :=
  let (neg, ds, fl, ex) := decParts s
  roundDec neg (digitsVal ds) (ex - (fl : Int))

/-- The decimal digits of a natural number, most significant first (`fuel` at least the number of digits). -/
def natStrF : Nat → Nat → Str
  | 0, _ => []
  | fuel + 1, n => if n < 10 then [UInt8.ofNat (48 + n)] else natStrF fuel (n / 10) ++ [UInt8.ofNat (48 + n % 10)]

/-- `std::to_string` of a non-negative number. -/
def natStr (n : Nat) : Str := natStrF (n + 1) n

/-- `std::to_string(int)`. -/
def intStr (n : Int) : Str := if n < 0 then c!"-" :: natStr n.natAbs else natStr n.natAbs

/-- Left padding with zeros. -/
def padZeros (w : Nat) (s : Str) : Str := List.replicate (w - s.length) c!"0" ++ s

/-- `std::fixed << std::setprecision(prec) << x`: exact decimal expansion rounded half to even at `prec` decimals; a
negative precision counts as 6 (libstdc++).  The only NaN the program can produce is x86's default NaN, whose sign bit
is set and which prints as `-nan`. -/
def fmtFixed (prec : Int) : Fl → Str
  | .nan => b!"-nan"
  | .inf s => if s then b!"-inf" else b!"inf"
  | .fin s k =>
    let p := if prec < 0 then 6 else prec.toNat
    let n := rhe (k * 10 ^ p) oneK
    let body := natStr (n / 10 ^ p) ++ (if p = 0 then [] else c!"." :: padZeros p (natStr (n % 10 ^ p)))
    if s then c!"-" :: body else body

end Knuckle
