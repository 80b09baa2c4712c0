/-
Floating-point numbers as rational numbers, rounding, and decimal texts.

This is the specification the float messages are compared with: IEEE 754 rounding to the nearest representable number,
written down over the rational numbers, independently of the arithmetic of `Verif/Model/Float.lean`.
-/
import Verif.Spec.Values
import Mathlib.Algebra.Order.Field.Rat
import Mathlib.Algebra.Order.Field.Power
import Mathlib.Algebra.Order.AbsoluteValue.Basic

namespace Knuckle.Spec

/-- The rational number that is the value of a finite float. -/
def number : Fl → Option ℚ
  | .fin neg k => some ((if neg then -(k : ℚ) else (k : ℚ)) / 2 ^ 1074)
  | _ => none

/-- The sign bit is set. -/
def signBit : Fl → Bool
  | .fin neg _ => neg
  | .inf neg => neg
  | .nan => true

/-- A binary floating-point format: `bits` significant bits, the smallest positive number is `2^-small`, the numbers are
smaller than `2^big`. -/
structure Format where
  bits : ℕ
  small : ℕ
  big : ℕ

/-- `float` -/
def single : Format := ⟨24, 149, 128⟩

/-- `double` -/
def double : Format := ⟨53, 1074, 1024⟩

/-- The numbers with at most `p` significant bits that are multiples of `2^-e`. -/
def OnGrid (p e : ℕ) (r : ℚ) : Prop := ∃ m k : ℤ, r = m * 2 ^ k ∧ |m| < 2 ^ p ∧ -(e : ℤ) ≤ k

/-- `r` is the number of the grid nearest to `q`; if two are equally near, the one with an even significand (which is one
that needs one bit less). -/
def Nearest (p e : ℕ) (q r : ℚ) : Prop :=
  OnGrid p e r ∧ (∀ r', OnGrid p e r' → |q - r| ≤ |q - r'|) ∧
  (∀ r', OnGrid p e r' → r' ≠ r → |q - r'| = |q - r| → OnGrid (p - 1) (e - 1) r)

/-- `x` is `q` rounded to the format.  A result that would be too large is an infinity.  `neg` is the sign of the result (it
matters if the result is zero). -/
def Rounds (F : Format) (neg : Bool) (q : ℚ) (x : Fl) : Prop :=
  ∃ r, Nearest F.bits F.small q r ∧ signBit x = neg ∧
    ((|r| < 2 ^ F.big ∧ number x = some r) ∨ (2 ^ F.big ≤ |r| ∧ x = .inf neg))

/-- Conversion of a `double` to `float`. -/
inductive Converts : Fl → Fl → Prop
  | nan : Converts .nan .nan
  | inf (neg : Bool) : Converts (.inf neg) (.inf neg)
  | num {d x : Fl} {q : ℚ} : number d = some q → Rounds single (signBit d) q x → Converts d x

/-! ### Arithmetic in a format, as IEEE 754 prescribes it -/

/-- `x + y = z` -/
inductive Sum (F : Format) : Fl → Fl → Fl → Prop
  | nanLeft (y : Fl) : Sum F .nan y .nan
  | nanRight (x : Fl) : Sum F x .nan .nan
  | opposite {a b : Bool} : a ≠ b → Sum F (.inf a) (.inf b) .nan
  | infinities (neg : Bool) : Sum F (.inf neg) (.inf neg) (.inf neg)
  | infLeft {neg : Bool} {y : Fl} {q : ℚ} : number y = some q → Sum F (.inf neg) y (.inf neg)
  | infRight {neg : Bool} {x : Fl} {p : ℚ} : number x = some p → Sum F x (.inf neg) (.inf neg)
  | zero {x y : Fl} {p q : ℚ} : number x = some p → number y = some q → p + q = 0 →
      Sum F x y (.fin (signBit x && signBit y) 0)
  | number {x y z : Fl} {p q : ℚ} : number x = some p → number y = some q → p + q ≠ 0 →
      Rounds F (decide (p + q < 0)) (p + q) z → Sum F x y z

/-- `-x` -/
def opposite : Fl → Fl
  | .nan => .nan
  | .inf neg => .inf (!neg)
  | .fin neg k => .fin (!neg) k

/-- `x - y = z` -/
def Difference (F : Format) (x y z : Fl) : Prop := Sum F x (opposite y) z

/-- `x * y = z` -/
inductive Product (F : Format) : Fl → Fl → Fl → Prop
  | nanLeft (y : Fl) : Product F .nan y .nan
  | nanRight (x : Fl) : Product F x .nan .nan
  | zeroTimesInf {neg : Bool} {x : Fl} : number x = some 0 → Product F x (.inf neg) .nan
  | infTimesZero {neg : Bool} {y : Fl} : number y = some 0 → Product F (.inf neg) y .nan
  | infinities (a b : Bool) : Product F (.inf a) (.inf b) (.inf (a != b))
  | infLeft {neg : Bool} {y : Fl} {q : ℚ} : number y = some q → q ≠ 0 → Product F (.inf neg) y (.inf (neg != signBit y))
  | infRight {neg : Bool} {x : Fl} {p : ℚ} : number x = some p → p ≠ 0 → Product F x (.inf neg) (.inf (signBit x != neg))
  | number {x y z : Fl} {p q : ℚ} : number x = some p → number y = some q →
      Rounds F (signBit x != signBit y) (p * q) z → Product F x y z

/-- `x / y = z` -/
inductive Quotient (F : Format) : Fl → Fl → Fl → Prop
  | nanLeft (y : Fl) : Quotient F .nan y .nan
  | nanRight (x : Fl) : Quotient F x .nan .nan
  | infinities (a b : Bool) : Quotient F (.inf a) (.inf b) .nan
  | zeros {x y : Fl} : number x = some 0 → number y = some 0 → Quotient F x y .nan
  | byZero {x y : Fl} {p : ℚ} : number x = some p → p ≠ 0 → number y = some 0 → Quotient F x y (.inf (signBit x != signBit y))
  | infLeft {neg : Bool} {y : Fl} {q : ℚ} : number y = some q → Quotient F (.inf neg) y (.inf (neg != signBit y))
  | infRight {neg : Bool} {x : Fl} {p : ℚ} : number x = some p → Quotient F x (.inf neg) (.fin (signBit x != neg) 0)
  | number {x y z : Fl} {p q : ℚ} : number x = some p → number y = some q → q ≠ 0 →
      Rounds F (signBit x != signBit y) (p / q) z → Quotient F x y z

/-- `x < y` -/
inductive Less : Fl → Fl → Prop
  | numbers {x y : Fl} {p q : ℚ} : number x = some p → number y = some q → p < q → Less x y
  | fromMinusInf {y : Fl} : y ≠ .nan → y ≠ .inf true → Less (.inf true) y
  | toInf {x : Fl} : x ≠ .nan → x ≠ .inf false → Less x (.inf false)

/-- The integer `n` is `r` without its fractional part. -/
def Truncates (r : ℚ) (n : ℤ) : Prop := |(n : ℚ)| ≤ |r| ∧ |r| < |(n : ℚ)| + 1 ∧ 0 ≤ (n : ℚ) * r

/-- The number written by the mantissa of a float literal. -/
inductive MantissaValue : Str → ℚ → Prop
  | whole {ds : Str} : ds ≠ [] → Digits ds → MantissaValue ds (decimal ds)
  | point {a b : Str} : Digits a → Digits b → (a ≠ [] ∨ b ≠ []) →
      MantissaValue (a ++ c!"." :: b) ((decimal a : ℚ) + (decimal b : ℚ) / 10 ^ b.length)

/-- The exponent of a float literal. -/
inductive ExponentValue : Str → ℤ → Prop
  | none : ExponentValue [] 0
  | some {x : Str} {n : ℤ} : IntLiteral x n → ExponentValue (c!"e" :: x) n

/-- `s` is a float literal with a minus sign (`neg`) or without, for the number `q`. -/
def FloatLiteral (s : Str) (neg : Bool) (q : ℚ) : Prop :=
  ∃ sg m e u n, s = sg ++ (m ++ e) ∧ Sign sg ∧ MantissaValue m u ∧ ExponentValue e n ∧
    (neg = true ↔ sg = b!"-") ∧ q = (if neg then -1 else 1) * (u * 10 ^ n)

/-- The integer `m` is nearest to `q`; if two are equally near, the even one. -/
def NearestInt (q : ℚ) (m : ℤ) : Prop :=
  (∀ m' : ℤ, |q - m| ≤ |q - m'|) ∧ (∀ m' : ℤ, m' ≠ m → |q - m'| = |q - m| → 2 ∣ m)

/-- `s` is the number `m / 10^p` (`p ≥ 0`), with `p` decimals, a point only if there are decimals, without superfluous zeros in front, and
with a minus sign if `neg`. -/
def FixedText (s : Str) (neg : Bool) (p m : ℕ) : Prop :=
  ∃ ip fp, s = (if neg then b!"-" else []) ++ (ip ++ (if p = 0 then [] else c!"." :: fp)) ∧ Digits ip ∧ ip ≠ [] ∧
    (ip.head? = some c!"0" → ip = b!"0") ∧ Digits fp ∧ fp.length = p ∧ m = decimal ip * 10 ^ p + decimal fp

end Knuckle.Spec
