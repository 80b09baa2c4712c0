/-
Every message to a Boolean, Character, Integer, Float or String has its meaning.
-/
import Verif.Proofs.Vector
import Verif.Proofs.IntArith
import Verif.Proofs.Strings

namespace Knuckle

open Spec

/-! ### The five comparisons in terms of two -/

section
variable {eps : Fl} {a b : Obj} {p q : Bool} (h1 : lessThan eps a b = .ok p) (h2 : greaterThan eps a b = .ok q)
include h1 h2

theorem equalTo_of : equalTo eps a b = .ok (!p && !q) := by
  simp only [equalTo, h1, h2, Res.bind_ok]; cases p <;> cases q <;> rfl

theorem le_of : lessThanOrEqualTo eps a b = .ok (p || !q) := by
  simp only [lessThanOrEqualTo, h1, Res.bind_ok, equalTo_of h1 h2]; cases p <;> cases q <;> rfl

theorem ge_of : greaterThanOrEqualTo eps a b = .ok (q || !p) := by
  simp only [greaterThanOrEqualTo, h2, Res.bind_ok, equalTo_of h1 h2]; cases p <;> cases q <;> rfl

end

theorem dec_eq (b : Bool) [Decidable (b = true)] : decide (b = true) = b := by cases b <;> simp

theorem less_if (eps : Fl) (v : Int) (x : Fl) :
    lessThan eps (.integer v) (.float x) = .ok (((ofInt32 v).sub f32 x).lt eps.neg) := by simp only [lessThan]
theorem less_ff (eps v x : Fl) : lessThan eps (.float v) (.float x) = .ok ((v.sub f32 x).lt eps.neg) := by
  simp only [lessThan]
theorem greater_if (eps : Fl) (v : Int) (x : Fl) :
    greaterThan eps (.integer v) (.float x) = .ok (eps.lt ((ofInt32 v).sub f32 x)) := by simp only [greaterThan]
theorem greater_ff (eps v x : Fl) : greaterThan eps (.float v) (.float x) = .ok (eps.lt (v.sub f32 x)) := by
  simp only [greaterThan]

/-! ### Booleans -/

theorem bool_says (v : Bool) (name : Str) (args : List Str) (m : BoolMsg) (h : BoolSays name args m) :
    dispatch v (boolTable v) name args = (boolMeaning v m).run v := by
  cases h with
  | get => cases v <;> rfl
  | @set a w ha =>
    show op1 v (fun a => do Res.ok (← booleanLit a, b!"null")) [a] = _
    have := (gsi_denotes _ _ _ ha).1
    rw [gsi_boolean] at this
    have e : booleanLit a = .ok w := by
      rcases hb : booleanLit a with x | x | _ <;> rw [hb] at this <;> simp at this
      rw [this]
    simp [op1, e, Res.run, boolMeaning, Result.run]
  | isTrue => cases v <;> rfl
  | isFalse => cases v <;> rfl

/-! ### Characters -/

theorem signed_eq (c : Byte) : schar c = signed c := by
  unfold schar signed
  have : (c < 128) ↔ c.toNat < 128 := by rw [UInt8.lt_iff_toNat_lt]; rfl
  simp only [this]

theorem signed_inj (a b : Byte) : signed a = signed b ↔ a = b := by
  rw [← signed_eq, ← signed_eq]; exact ⟨schar_inj a b, fun h => by rw [h]⟩

theorem charCmp_eq (cmp : Obj → Obj → Res Bool) (v w : Byte) (b : Bool) (h : cmp (.character v) (.character w) = .ok b) :
    charCmp cmp v [[c!"'", w, c!"'"]] = .ret v (boolStr b) := by
  simp only [charCmp, op1, characterLit_char, Res.bind_ok, h, Res.run]

theorem char_says (eps : Fl) (v : Byte) (name : Str) (args : List Str) (m : CharMsg) (h : CharSays name args m) :
    dispatch v (charTable eps v) name args = (charMeaning v m).run v := by
  have c1 : ∀ w, lessThan eps (.character v) (.character w) = .ok (decide (signed v < signed w)) := by
    intro w; simp only [lessThan, signed_eq]
  have c2 : ∀ w, greaterThan eps (.character v) (.character w) = .ok (decide (signed v > signed w)) := by
    intro w; simp only [greaterThan, signed_eq]
  cases h with
  | get => rfl
  | @set w =>
    show op1 v (fun a => do Res.ok (← characterLit a, b!"null")) [[c!"'", w, c!"'"]] = _
    simp [op1, characterLit_char, Res.run, charMeaning, Result.run]
  | isAlphabetic => exact congrArg (Run.ret v) (boolStr_truth _ _ (isAlpha_iff v))
  | isNumeric => exact congrArg (Run.ret v) (boolStr_truth _ _ (isNumeric_iff v))
  | isAlphanumeric =>
    refine congrArg (Run.ret v) (boolStr_truth _ (Letter v ∨ Digit v) ?_)
    show isAlphanumeric v = true ↔ _
    unfold isAlphanumeric
    rw [Bool.or_eq_true, isAlpha_iff, isNumeric_iff]
  | isSpace => exact congrArg (Run.ret v) (boolStr_truth _ _ (isSpace_iff v))
  | @eq w =>
    refine (charCmp_eq (equalTo eps) v w _ (equalTo_of (c1 w) (c2 w))).trans (congrArg (Run.ret v) (boolStr_truth _ _ ?_))
    rw [← signed_inj v w]; simp; omega
  | @lt w =>
    exact (charCmp_eq (lessThan eps) v w _ (c1 w)).trans (congrArg (Run.ret v) (boolStr_truth _ _ (by simp)))
  | @le w =>
    refine (charCmp_eq (lessThanOrEqualTo eps) v w _ (le_of (c1 w) (c2 w))).trans (congrArg (Run.ret v) (boolStr_truth _ _ ?_))
    simp; omega
  | @gt w =>
    exact (charCmp_eq (greaterThan eps) v w _ (c2 w)).trans (congrArg (Run.ret v) (boolStr_truth _ _ (by simp)))
  | @ge w =>
    refine (charCmp_eq (greaterThanOrEqualTo eps) v w _ (ge_of (c1 w) (c2 w))).trans (congrArg (Run.ret v) (boolStr_truth _ _ ?_))
    simp; omega

/-! ### Integers -/

theorem intCmp_int (cmp : Obj → Obj → Res Bool) (v n : Int) (a : Str) (h1 : IntLiteral a n) (h2 : IsInt32 n) (b : Bool)
    (h : cmp (.integer v) (.integer n) = .ok b) : intCmp cmp v [a] = .ret v (boolStr b) := by
  have hi := (isIntegerValue_iff a).2 ((intLiteral_exists a).2 ⟨n, h1⟩)
  simp only [intCmp, op1, hi, Bool.not_true, Bool.false_and, Bool.false_eq_true, if_false, if_true,
    integerLit_denotes a n (.integer h1 h2), Res.bind_ok, h, Res.run]

theorem floatLit_denotes (a : Str) (h : FloatValue a) : floatLit a = .ok (atof a).toF32 := by
  unfold floatLit; rw [(isFloatValue_iff a).2 h]; rfl

theorem intCmp_flt (cmp : Obj → Obj → Res Bool) (v : Int) (a : Str) (h1 : FloatValue a) (h2 : ¬ IntegerValue a) (b : Bool)
    (h : cmp (.integer v) (.float (atof a).toF32) = .ok b) : intCmp cmp v [a] = .ret v (boolStr b) := by
  have hi : isIntegerValue a = false := by rw [Bool.eq_false_iff, ne_eq, isIntegerValue_iff]; exact h2
  simp only [intCmp, op1, hi, (isFloatValue_iff a).2 h1, Bool.not_true, Bool.not_false, Bool.and_false, Bool.false_eq_true,
    if_false, floatLit_denotes a h1, Res.bind_ok, h, Res.run]

theorem intArith_int (f : Fl → Fl → Fl) (v n : Int) (a : Str) (h1 : IntLiteral a n) (h2 : IsInt32 n) :
    intArith f v [a] = Result.run v (truncated (f (ofInt64 v) (ofInt64 n))) := by
  have hi := (isIntegerValue_iff a).2 ((intLiteral_exists a).2 ⟨n, h1⟩)
  simp only [intArith, op1, hi, Bool.not_true, Bool.false_and, Bool.false_eq_true, if_false,
    numArg_int a n h1 ((int32_iff n).1 h2), Res.bind_ok, truncated]
  cases h : (f (ofInt64 v) (ofInt64 n)).toInt with
  | ok m => rfl
  | err e => cases hx : f (ofInt64 v) (ofInt64 n) <;> rw [hx] at h <;> simp only [Fl.toInt] at h <;> (try split at h) <;> cases h
  | ub => rfl

theorem intArith_flt (f : Fl → Fl → Fl) (v : Int) (a : Str) (h1 : FloatValue a) (h2 : ¬ IntegerValue a) :
    intArith f v [a] = Result.run v (truncated (f (ofInt64 v) (atof a))) := by
  simp only [intArith, op1, (isFloatValue_iff a).2 h1, Bool.not_true, Bool.and_false, Bool.false_eq_true, if_false,
    numArg_float a h2, Res.bind_ok, truncated]
  cases h : (f (ofInt64 v) (atof a)).toInt with
  | ok m => rfl
  | err e => cases hx : f (ofInt64 v) (atof a) <;> rw [hx] at h <;> simp only [Fl.toInt] at h <;> (try split at h) <;> cases h
  | ub => rfl

theorem truncated_eq (x : Fl) (n : Int) (h : x.toInt = if inInt n then .ok n else .ub) : truncated x = exactly n := by
  unfold truncated exactly
  rw [h]
  by_cases hn : inInt n
  · rw [if_pos hn, if_pos ((int32_iff n).2 hn)]
  · rw [if_neg hn, if_neg fun e => hn ((int32_iff n).1 e)]

theorem truncated_ub (x : Fl) (h : x.toInt = .ub) : truncated x = .undefined := by
  unfold truncated; rw [h]

theorem div_zero_toInt' (a n : Int) (ha : inInt a) (h0 : n = 0) : (Fl.div f64 (ofInt64 a) (ofInt64 n)).toInt = .ub := by
  rw [h0]; exact div_zero_toInt a ha

theorem int_says (eps : Fl) (v : Int) (hv : IsInt32 v) (name : Str) (args : List Str) (m : IntMsg)
    (h : IntSays name args m) : dispatch v (intTable eps v) name args = (intMeaning eps v m).run v := by
  have hv' := (int32_iff v).1 hv
  have c1 : ∀ w, lessThan eps (.integer v) (.integer w) = .ok (decide (v < w)) := fun _ => rfl
  have c2 : ∀ w, greaterThan eps (.integer v) (.integer w) = .ok (decide (v > w)) := fun _ => rfl
  have d1 : ∀ x, lessThan eps (.integer v) (.float x) = .ok (decide (below eps (ofInt32 v) x)) := by
    intro x; rw [less_if]; rw [dec_eq]
  have d2 : ∀ x, greaterThan eps (.integer v) (.float x) = .ok (decide (above eps (ofInt32 v) x)) := by
    intro x; rw [greater_if]; rw [dec_eq]
  cases h with
  | get => rfl
  | @set a n ha =>
    show op1 v (fun a => do Res.ok (← integerLit a, b!"null")) [a] = _
    simp [op1, integerLit_denotes a n ha, Res.run, intMeaning, Result.run]
  | @eq a x hx =>
    show intCmp (equalTo eps) v [a] = _
    cases hx with
    | @int n h1 h2 =>
      refine (intCmp_int _ v n a h1 h2 _ (equalTo_of (c1 n) (c2 n))).trans (congrArg (Run.ret v) (boolStr_truth _ _ ?_))
      simp; omega
    | flt h1 h2 =>
      refine (intCmp_flt _ v a h1 h2 _ (equalTo_of (d1 _) (d2 _))).trans (congrArg (Run.ret v) (boolStr_truth _ _ ?_))
      simp
  | @lt a x hx =>
    show intCmp (lessThan eps) v [a] = _
    cases hx with
    | @int n h1 h2 =>
      exact (intCmp_int _ v n a h1 h2 _ (c1 n)).trans (congrArg (Run.ret v) (boolStr_truth _ _ (by simp)))
    | flt h1 h2 =>
      exact (intCmp_flt _ v a h1 h2 _ (d1 _)).trans (congrArg (Run.ret v) (boolStr_truth _ _ (by simp)))
  | @le a x hx =>
    show intCmp (lessThanOrEqualTo eps) v [a] = _
    cases hx with
    | @int n h1 h2 =>
      refine (intCmp_int _ v n a h1 h2 _ (le_of (c1 n) (c2 n))).trans (congrArg (Run.ret v) (boolStr_truth _ _ ?_))
      simp; omega
    | flt h1 h2 =>
      refine (intCmp_flt _ v a h1 h2 _ (le_of (d1 _) (d2 _))).trans (congrArg (Run.ret v) (boolStr_truth _ _ ?_))
      simp
  | @gt a x hx =>
    show intCmp (greaterThan eps) v [a] = _
    cases hx with
    | @int n h1 h2 =>
      exact (intCmp_int _ v n a h1 h2 _ (c2 n)).trans (congrArg (Run.ret v) (boolStr_truth _ _ (by simp)))
    | flt h1 h2 =>
      exact (intCmp_flt _ v a h1 h2 _ (d2 _)).trans (congrArg (Run.ret v) (boolStr_truth _ _ (by simp)))
  | @ge a x hx =>
    show intCmp (greaterThanOrEqualTo eps) v [a] = _
    cases hx with
    | @int n h1 h2 =>
      refine (intCmp_int _ v n a h1 h2 _ (ge_of (c1 n) (c2 n))).trans (congrArg (Run.ret v) (boolStr_truth _ _ ?_))
      simp; omega
    | flt h1 h2 =>
      refine (intCmp_flt _ v a h1 h2 _ (ge_of (d1 _) (d2 _))).trans (congrArg (Run.ret v) (boolStr_truth _ _ ?_))
      simp
  | @add a x hx =>
    show intArith (Fl.add f64) v [a] = _
    cases hx with
    | @int n h1 h2 =>
      rw [intArith_int _ v n a h1 h2, truncated_eq _ _ (add_toInt v n hv' ((int32_iff n).1 h2))]; simp only [intMeaning]
    | flt h1 h2 => rw [intArith_flt _ v a h1 h2]; simp only [intMeaning]
  | @subtract a x hx =>
    show intArith (Fl.sub f64) v [a] = _
    cases hx with
    | @int n h1 h2 =>
      rw [intArith_int _ v n a h1 h2, truncated_eq _ _ (sub_toInt v n hv' ((int32_iff n).1 h2))]; simp only [intMeaning]
    | flt h1 h2 => rw [intArith_flt _ v a h1 h2]; simp only [intMeaning]
  | @multiplyBy a x hx =>
    show intArith (Fl.mul f64) v [a] = _
    cases hx with
    | @int n h1 h2 =>
      rw [intArith_int _ v n a h1 h2, truncated_eq _ _ (mul_toInt v n hv' ((int32_iff n).1 h2))]; simp only [intMeaning]
    | flt h1 h2 => rw [intArith_flt _ v a h1 h2]; simp only [intMeaning]
  | @divideBy a x hx =>
    show intArith (Fl.div f64) v [a] = _
    cases hx with
    | @int n h1 h2 =>
      rw [intArith_int _ v n a h1 h2]
      by_cases h0 : n = 0
      · rw [truncated_ub _ (div_zero_toInt' v n hv' h0)]
        simp only [intMeaning, if_pos h0]
      · rw [truncated_eq _ _ (div_toInt v n hv' ((int32_iff n).1 h2) h0)]
        simp only [intMeaning, if_neg h0]
    | flt h1 h2 => rw [intArith_flt _ v a h1 h2]; simp only [intMeaning]

/-! ### Floats -/

theorem floatCmp_eq (cmp : Obj → Obj → Res Bool) (v : Fl) (a : Str) (h1 : FloatValue a) (b : Bool)
    (h : cmp (.float v) (.float (atof a).toF32) = .ok b) : floatCmp cmp v [a] = .ret v (boolStr b) := by
  simp only [floatCmp, op1, floatLit_denotes a h1, Res.bind_ok, h, Res.run]

theorem floatArith_eq (f : Fl → Fl → Fl) (v : Fl) (a : Str) (h1 : FloatValue a) :
    floatArith f v [a] = .ret (f v (atof a)).toF32 b!"null" := by
  simp [floatArith, op1, (isFloatValue_iff a).2 h1, Res.run]

theorem flt_says (cfg : Cfg) (v : Fl) (name : Str) (args : List Str) (m : FltMsg)
    (h : FltSays name args m) : dispatch v (floatTable cfg v) name args = (fltMeaning cfg v m).run v := by
  have d1 : ∀ x, lessThan cfg.eps (.float v) (.float x) = .ok (decide (below cfg.eps v x)) := by
    intro x; rw [less_ff]; rw [dec_eq]
  have d2 : ∀ x, greaterThan cfg.eps (.float v) (.float x) = .ok (decide (above cfg.eps v x)) := by
    intro x; rw [greater_ff]; rw [dec_eq]
  cases h with
  | get => rfl
  | @set a ha =>
    show op1 v (fun a => do Res.ok (← floatLit a, b!"null")) [a] = _
    simp [op1, floatLit_denotes a ha, Res.run, fltMeaning, Result.run]
  | @eq a ha =>
    refine (floatCmp_eq (equalTo cfg.eps) v a ha _ (equalTo_of (d1 _) (d2 _))).trans (congrArg (Run.ret v) (boolStr_truth _ _ ?_))
    simp
  | @lt a ha => exact (floatCmp_eq (lessThan cfg.eps) v a ha _ (d1 _)).trans (congrArg (Run.ret v) (boolStr_truth _ _ (by simp)))
  | @le a ha =>
    refine (floatCmp_eq (lessThanOrEqualTo cfg.eps) v a ha _ (le_of (d1 _) (d2 _))).trans (congrArg (Run.ret v) (boolStr_truth _ _ ?_))
    simp
  | @gt a ha => exact (floatCmp_eq (greaterThan cfg.eps) v a ha _ (d2 _)).trans (congrArg (Run.ret v) (boolStr_truth _ _ (by simp)))
  | @ge a ha =>
    refine (floatCmp_eq (greaterThanOrEqualTo cfg.eps) v a ha _ (ge_of (d1 _) (d2 _))).trans (congrArg (Run.ret v) (boolStr_truth _ _ ?_))
    simp
  | @add a ha => exact floatArith_eq (Fl.add f64) v a ha
  | @subtract a ha => exact floatArith_eq (Fl.sub f64) v a ha
  | @multiplyBy a ha => exact floatArith_eq (Fl.mul f64) v a ha
  | @divideBy a ha => exact floatArith_eq (Fl.div f64) v a ha

/-! ### Strings -/

theorem stringCmp_eq (cmp : Obj → Obj → Res Bool) (v w : Str) (a : Str) (h1 : StringLiteral a w) (b : Bool)
    (h : cmp (.string v) (.string w) = .ok b) : stringCmp cmp v [a] = .ret v (boolStr b) := by
  simp only [stringCmp, op1, stringLit_denotes a w h1, Res.bind_ok, h, Res.run]

theorem substrR_ok (s : Str) (p n : Nat) (h : p ≤ s.length) : substrR s p n = .ok ((s.drop p).take n) := by
  unfold substrR; rw [if_neg (by omega)]

theorem getD_lt (v : Str) (k : Nat) (h : k < v.length) : v.getD k 0 = v[k] := by
  simp [List.getD, List.getElem?_eq_getElem h]

theorem rangeBool (i : Int) (n : Nat) : (decide (i < 0) || decide (i > (n : Int))) = !decide (0 ≤ i ∧ i ≤ n) := by
  by_cases h : 0 ≤ i ∧ i ≤ n
  · rw [decide_eq_true h]; simp; omega
  · rw [decide_eq_false h]; simp; omega

theorem rangeBoolAt (i : Int) (n : Nat) : (decide (i < 0) || decide (i ≥ (n : Int))) = !decide (0 ≤ i ∧ i < n) := by
  by_cases h : 0 ≤ i ∧ i < n
  · rw [decide_eq_true h]; simp; omega
  · rw [decide_eq_false h]; simp; omega

theorem str_says (eps : Fl) (v : Str) (name : Str) (args : List Str) (m : StrMsg)
    (h : StrSays name args m) : dispatch v (stringTable eps v) name args = (strMeaning v m).run v := by
  have d1 : ∀ w, lessThan eps (.string v) (.string w) = .ok (decide (v < w)) := by
    intro w; simp only [lessThan, strLt_eq]
  have d2 : ∀ w, greaterThan eps (.string v) (.string w) = .ok (decide (w < v)) := by
    intro w; simp only [greaterThan, strLt_eq]
  have tot : ∀ w, ¬ v < w → ¬ w < v → v = w := by
    intro w a b
    exact strLt_total v w (by rw [strLt_eq]; simpa using a) (by rw [strLt_eq]; simpa using b)
  have irr : ¬ v < v := by have := strLt_irrefl v; rw [strLt_eq] at this; simpa using this
  have asym : ∀ w, v < w → ¬ w < v := by
    intro w a b
    have := strLt_asymm v w (by rw [strLt_eq]; simpa using a)
    rw [strLt_eq] at this; simp at this; exact absurd b (by simpa using this)
  cases h with
  | get => rfl
  | @set a w ha =>
    show op1 v (fun a => do Res.ok (← stringLit a, b!"null")) [a] = _
    simp [op1, stringLit_denotes a w ha, Res.run, strMeaning, Result.run]
  | isEmpty => exact congrArg (Run.ret v) (boolStr_truth _ _ (by simp))
  | @startsWith a w ha =>
    show op1 v (fun a => do Res.ok (v, boolStr (startsWith v (← stringLit a)))) [a] = _
    simp only [op1, stringLit_denotes a w ha, Res.bind_ok, Res.run]
    refine congrArg (Run.ret v) (boolStr_truth _ _ ?_)
    rw [startsWith_iff]; exact ⟨fun ⟨r, h⟩ => ⟨r, h.symm⟩, fun ⟨r, h⟩ => ⟨r, h.symm⟩⟩
  | @endsWith a w ha =>
    show op1 v (fun a => do Res.ok (v, boolStr (endsWith v (← stringLit a)))) [a] = _
    simp only [op1, stringLit_denotes a w ha, Res.bind_ok, Res.run]
    refine congrArg (Run.ret v) (boolStr_truth _ _ ?_)
    rw [endsWith_iff]; exact ⟨fun ⟨r, h⟩ => ⟨r, h.symm⟩, fun ⟨r, h⟩ => ⟨r, h.symm⟩⟩
  | @eq a w ha =>
    refine (stringCmp_eq (equalTo eps) v w a ha _ (equalTo_of (d1 _) (d2 _))).trans (congrArg (Run.ret v) (boolStr_truth _ _ ?_))
    constructor
    · intro e
      simp only [Bool.and_eq_true, Bool.not_eq_true', decide_eq_false_iff_not] at e
      exact tot w e.1 e.2
    · rintro rfl; simp [irr]
  | @lt a w ha =>
    exact (stringCmp_eq (lessThan eps) v w a ha _ (d1 _)).trans (congrArg (Run.ret v) (boolStr_truth _ _ (by simp)))
  | @le a w ha =>
    refine (stringCmp_eq (lessThanOrEqualTo eps) v w a ha _ (le_of (d1 _) (d2 _))).trans (congrArg (Run.ret v) (boolStr_truth _ _ ?_))
    simp only [Bool.or_eq_true, Bool.not_eq_true', decide_eq_false_iff_not, decide_eq_true_eq]
    constructor
    · rintro (e | e)
      · exact .inl e
      · by_cases h : v < w
        · exact .inl h
        · exact .inr (tot w h e)
    · rintro (e | rfl)
      · exact .inl e
      · exact .inr irr
  | @gt a w ha =>
    exact (stringCmp_eq (greaterThan eps) v w a ha _ (d2 _)).trans (congrArg (Run.ret v) (boolStr_truth _ _ (by simp)))
  | @ge a w ha =>
    refine (stringCmp_eq (greaterThanOrEqualTo eps) v w a ha _ (ge_of (d1 _) (d2 _))).trans (congrArg (Run.ret v) (boolStr_truth _ _ ?_))
    simp only [Bool.or_eq_true, Bool.not_eq_true', decide_eq_false_iff_not, decide_eq_true_eq]
    constructor
    · rintro (e | e)
      · exact .inl e
      · by_cases h : w < v
        · exact .inl h
        · exact .inr (tot w e h)
    · rintro (e | rfl)
      · exact .inl e
      · exact .inr irr
  | length => rfl
  | @atIndex a i ha =>
    show strAtIndex v [a] = _
    simp only [strAtIndex, op1, int_denotes a i ha, Res.bind_ok, rangeBoolAt, strMeaning]
    by_cases h : 0 ≤ i ∧ i < v.length
    · rw [dif_pos h, decide_eq_true h]
      have hi : i.toNat < v.length := by omega
      simp only [Bool.not_true, Bool.false_eq_true, if_false, Res.run, Result.run]
      rw [getD_lt _ _ hi]
    · rw [dif_neg h, decide_eq_false h]; rfl
  | @first a n ha =>
    show strFirst v [a] = _
    simp only [strFirst, op1, int_denotes a n ha, Res.bind_ok, strMeaning]
    by_cases h : 0 ≤ n
    · rw [if_neg (by omega), if_pos h, substrR_ok _ _ _ (by omega), minNat n h, List.drop_zero, take_min]; rfl
    · rw [if_pos (by omega), if_neg h]; rfl
  | @last a n ha =>
    show strLast v [a] = _
    simp only [strLast, op1, int_denotes a n ha, Res.bind_ok, strMeaning]
    by_cases h : 0 ≤ n
    · rw [if_neg (by omega), if_pos h, substrR_ok _ _ _ (by omega),
        show ((v.length : Int) - min n (v.length : Int)).toNat = v.length - min n.toNat v.length by omega, drop_sub_min,
        List.take_of_length_le (by simp)]; rfl
    · rw [if_pos (by omega), if_neg h]; rfl
  | @substring a i ha =>
    show strSubstringFrom v [a] = _
    simp only [strSubstringFrom, op1, int_denotes a i ha, Res.bind_ok, rangeBool, strMeaning]
    by_cases h : 0 ≤ i ∧ i ≤ v.length
    · rw [if_pos h, decide_eq_true h, substrR_ok _ _ _ (by omega), List.take_of_length_le (by simp)]; rfl
    · rw [if_neg h, decide_eq_false h]; rfl
  | @substringTo a i b j ha hb =>
    show strSubstringFromTo v [a, b] = _
    simp only [strSubstringFromTo, op2, int_denotes a i ha, int_denotes b j hb, Res.bind_ok, checkRange_eq, strMeaning]
    by_cases h : 0 ≤ i ∧ i ≤ j ∧ j ≤ v.length
    · rw [if_pos h, if_pos h, Res.bind_ok, substrR_ok _ _ _ (by omega), List.drop_take,
        show (j - i).toNat = j.toNat - i.toNat by omega]; rfl
    · rw [if_neg h, if_neg h]; rfl
  | @pushBack c =>
    show op1 v (fun a => do Res.ok (v ++ [← characterLit a], b!"null")) [[c!"'", c, c!"'"]] = _
    simp [op1, characterLit_char, Res.run, strMeaning, Result.run]
  | @pushFront c =>
    show op1 v (fun a => do Res.ok ([← characterLit a] ++ v, b!"null")) [[c!"'", c, c!"'"]] = _
    simp [op1, characterLit_char, Res.run, strMeaning, Result.run]
  | popBack =>
    show strPopBack v [] = _
    simp only [strPopBack, op0, strMeaning, List.getLast?_eq_getElem?]
    by_cases h : v = []
    · subst h; rfl
    · have : v.length - 1 < v.length := by have := List.length_pos_iff.2 h; omega
      rw [if_neg (by simpa using h), substrR_ok _ _ _ (by omega), List.getElem?_eq_getElem this, List.dropLast_eq_take,
        getD_lt _ _ this]; rfl
  | popFront =>
    show strPopFront v [] = _
    cases v with
    | nil => rfl
    | cons c r =>
      simp only [strPopFront, op0, strMeaning]
      rw [if_neg (by simp), substrR_ok _ _ _ (by simp)]
      simp [Res.run, Result.run]
  | @popAtIndex a i ha =>
    show strPopAtIndex v [a] = _
    simp only [strPopAtIndex, op1, int_denotes a i ha, Res.bind_ok, rangeBoolAt, strMeaning]
    by_cases h : 0 ≤ i ∧ i < v.length
    · rw [dif_pos h, decide_eq_true h]
      have hi : i.toNat < v.length := by omega
      simp only [Bool.not_true, Bool.false_eq_true, if_false, Res.run, Result.run]
      rw [getD_lt _ _ hi, List.eraseIdx_eq_take_drop_succ]
    · rw [dif_neg h, decide_eq_false h]; rfl
  | @concatenate a w ha =>
    show op1 v (fun a => do Res.ok (v ++ (← stringLit a), b!"null")) [a] = _
    simp [op1, stringLit_denotes a w ha, Res.run, strMeaning, Result.run]
  | @insert a w b i ha hb =>
    have hs : isStringValue a = true := by
      obtain ⟨x, rfl, hx, _⟩ := ha; exact (isStringValue_iff _).2 ⟨x, rfl, hx⟩
    show strInsert v [a, b] = _
    simp only [strInsert, op2, hs, Bool.not_true, Bool.false_eq_true, if_false, int_denotes b i hb,
      stringLit_denotes a w ha, Res.bind_ok, rangeBool, strMeaning]
    by_cases h : 0 ≤ i ∧ i ≤ v.length
    · rw [if_pos h, decide_eq_true h]
      simp only [Bool.not_true, Bool.false_eq_true, if_false]
      rw [if_neg (by omega)]; simp [Res.run, Result.run]
    · rw [if_neg h, decide_eq_false h]; rfl
  | @erase a i ha =>
    show strErase v [a] = _
    simp only [strErase, op1, int_denotes a i ha, Res.bind_ok, rangeBool, strMeaning]
    by_cases h : 0 ≤ i ∧ i ≤ v.length
    · rw [if_pos h, decide_eq_true h]
      simp only [Bool.not_true, Bool.false_eq_true, if_false]
      rw [if_neg (by omega)]; rfl
    · rw [if_neg h, decide_eq_false h]; rfl
  | @eraseTo a i b j ha hb =>
    show strEraseTo v [a, b] = _
    simp only [strEraseTo, op2, int_denotes a i ha, int_denotes b j hb, Res.bind_ok, checkRange_eq, strMeaning]
    by_cases h : 0 ≤ i ∧ i ≤ j ∧ j ≤ v.length
    · rw [if_pos h, if_pos h, Res.bind_ok, if_neg (by omega), show i.toNat + (j - i).toNat = j.toNat by omega]; rfl
    · rw [if_neg h, if_neg h]; rfl
  | clear => rfl

end Knuckle
