/-
The model's reading of literals agrees with `Spec.Denotes`.
-/
import Verif.Spec.Values
import Verif.Proofs.Literals
import Verif.Proofs.IntArith
import Verif.Proofs.Order

namespace Knuckle

open Spec

theorem int32_iff (n : Int) : IsInt32 n ↔ inInt n := by unfold IsInt32 inInt; omega

/-! ### Integers -/

theorem horner (s : Str) : ∀ a, s.foldl (fun a c => a * 10 + (c.toNat - 48)) a = a * 10 ^ s.length + decimal s := by
  induction s with
  | nil => intro a; simp [decimal]
  | cons c cs ih =>
    intro a
    rw [List.foldl_cons, ih, decimal, List.length_cons, Nat.pow_succ]
    ring

theorem digitsVal_eq (s : Str) : digitsVal s = decimal s := by
  unfold digitsVal; rw [horner]; simp

theorem spanDigits_all (s r : Str) (h : Digits s) (hr : ∀ c, r.head? = some c → ¬ Digit c) : spanDigits (s ++ r) = (s, r) := by
  induction s with
  | nil =>
    cases r with
    | nil => rfl
    | cons c cs =>
      have : isNumeric c = false := by
        rw [Bool.eq_false_iff]; intro hc; exact hr c rfl ((isNumeric_iff c).1 hc)
      simp [spanDigits, this]
  | cons c cs ih =>
    have hc := (isNumeric_iff c).2 (h c (by simp))
    rw [List.cons_append, spanDigits, if_pos hc, ih fun d hd => h d (by simp [hd])]

theorem digit_ne (c d : Byte) (h : Digit c) (hd : ¬ Digit d) : c ≠ d := fun e => hd (e ▸ h)

theorem spanSign_digits (s : Str) (h : Digits s) (hne : s ≠ []) : spanSign s = (false, s) := by
  cases s with
  | nil => exact absurd rfl hne
  | cons c cs =>
    have hc := h c (by simp)
    have h1 : (c == c!"-") = false := beq_false_of_ne (digit_ne _ _ hc (by unfold Digit; decide))
    have h2 : (c == c!"+") = false := beq_false_of_ne (digit_ne _ _ hc (by unfold Digit; decide))
    simp [spanSign, h1, h2]

theorem decInt_eq (s : Str) (n : Int) (h : IntLiteral s n) : decInt s = n := by
  obtain ⟨sg, ds, rfl, hs, hne, hd, rfl⟩ := h
  have hsp : spanDigits ds = (ds, []) := by have := spanDigits_all ds [] hd (by simp); simpa using this
  unfold decInt
  rcases hs with rfl | rfl | rfl
  · rw [List.nil_append, spanSign_digits ds hd hne]
    simp [hsp, digitsVal_eq, sgn]
  · have : spanSign (b!"+" ++ ds) = (false, ds) := rfl
    rw [this]
    simp [hsp, digitsVal_eq, sgn]
  · have : spanSign (b!"-" ++ ds) = (true, ds) := rfl
    rw [this]
    simp [hsp, digitsVal_eq, sgn]

theorem intLiteral_exists (s : Str) : IntegerValue s ↔ ∃ n, IntLiteral s n := by
  constructor
  · rintro ⟨sg, ds, h1, h2, h3, h4⟩; exact ⟨_, sg, ds, h1, h2, h3, h4, rfl⟩
  · rintro ⟨n, sg, ds, h1, h2, h3, h4, _⟩; exact ⟨sg, ds, h1, h2, h3, h4⟩

theorem intLiteral_unique (s : Str) (n m : Int) (h : IntLiteral s n) (h' : IntLiteral s m) : n = m := by
  rw [← decInt_eq s n h, ← decInt_eq s m h']

theorem atoi_eq (s : Str) (n : Int) (h : IntLiteral s n) : atoi s = if inInt n then .ok n else .ub := by
  unfold atoi; rw [decInt_eq s n h]

theorem numArg_int (s : Str) (n : Int) (h : IntLiteral s n) (hn : inInt n) : numArg s = .ok (ofInt64 n) := by
  unfold numArg
  rw [if_pos ((isIntegerValue_iff s).2 ((intLiteral_exists s).2 ⟨n, h⟩)), atoi_eq s n h, if_pos hn]; rfl

theorem numArg_ub (s : Str) (n : Int) (h : IntLiteral s n) (hn : ¬ inInt n) : numArg s = .ub := by
  unfold numArg
  rw [if_pos ((isIntegerValue_iff s).2 ((intLiteral_exists s).2 ⟨n, h⟩)), atoi_eq s n h, if_neg hn]; rfl

theorem numArg_float (s : Str) (h : ¬ IntegerValue s) : numArg s = .ok (atof s) := by
  unfold numArg
  rw [if_neg (by rw [isIntegerValue_iff]; exact h)]

theorem integer_is_float (s : Str) (h : IntegerValue s) : FloatValue s := by
  obtain ⟨sg, ds, rfl, hs, hne, hd⟩ := h
  exact ⟨sg, ds, [], by simp, hs, .inl ⟨hne, hd⟩, .inl rfl⟩

/-- The three outcomes of reading an integer argument. -/
theorem integerLit_cases (s : Str) :
    (∃ n, integerLit s = .ok n ∧ Denotes b!"Integer" s (.integer n) ∧ inInt n) ∨
    (integerLit s = .err .invalidArgument ∧ ¬ LiteralOf b!"Integer" s) ∨
    (integerLit s = .ub ∧ OutOfRange s) := by
  unfold integerLit
  by_cases hi : IntegerValue s
  · have h1 := (isIntegerValue_iff s).2 hi
    obtain ⟨n, hn⟩ := (intLiteral_exists s).1 hi
    simp only [h1, Bool.not_true, Bool.false_and, Bool.false_eq_true, if_false]
    by_cases hr : inInt n
    · rw [numArg_int s n hn hr, Res.bind_ok, toInt_ofInt64 n hr]
      exact .inl ⟨n, rfl, .integer hn ((int32_iff n).2 hr), hr⟩
    · rw [numArg_ub s n hn hr]
      exact .inr (.inr ⟨rfl, .inl ⟨n, hn, fun h => hr ((int32_iff n).1 h)⟩⟩)
  · have h1 : isIntegerValue s = false := by rw [Bool.eq_false_iff, ne_eq, isIntegerValue_iff]; exact hi
    by_cases hf : FloatValue s
    · have h2 := (isFloatValue_iff s).2 hf
      simp only [h1, h2, Bool.not_true, Bool.and_false, Bool.false_eq_true, if_false]
      rw [numArg_float s hi, Res.bind_ok]
      cases ht : (atof s).toInt with
      | ok n =>
        refine .inl ⟨n, rfl, .truncated hf hi ht, ?_⟩
        cases hx : atof s with
        | fin a k =>
          rw [hx] at ht
          simp only [Fl.toInt] at ht
          split at ht
          · rename_i h; injection ht with ht; rw [← ht]; exact h
          · cases ht
        | inf a => rw [hx] at ht; cases ht
        | nan => rw [hx] at ht; cases ht
      | err e =>
        cases hx : atof s with
        | fin a k =>
          rw [hx] at ht
          simp only [Fl.toInt] at ht
          split at ht <;> cases ht
        | inf a => rw [hx] at ht; cases ht
        | nan => rw [hx] at ht; cases ht
      | ub => exact .inr (.inr ⟨rfl, .inr ⟨hf, hi, ht⟩⟩)
    · have h2 : isFloatValue s = false := by rw [Bool.eq_false_iff, ne_eq, isFloatValue_iff]; exact hf
      simp only [h1, h2, Bool.not_false, Bool.and_self, if_true]
      refine .inr (.inl ⟨trivial, ?_⟩)
      rintro (⟨h, _⟩ | ⟨h, _⟩ | ⟨_, h | h⟩ | ⟨h, _⟩ | ⟨h, _⟩)
      · revert h; decide
      · revert h; decide
      · exact hi h
      · exact hf h
      · revert h; decide
      · revert h; decide

theorem integerLit_denotes (s : Str) (n : Int) (h : Denotes b!"Integer" s (.integer n)) : integerLit s = .ok n := by
  have key : (IntLiteral s n ∧ IsInt32 n) ∨ (FloatValue s ∧ ¬ IntegerValue s ∧ (atof s).toInt = .ok n) := by
    generalize ht : b!"Integer" = t at h
    generalize ho : Obj.integer n = o at h
    cases h <;> simp at ht ho
    · subst ho; left; constructor <;> assumption
    · subst ho; right; exact ⟨by assumption, by assumption, by assumption⟩
  unfold integerLit
  rcases key with ⟨h1, h2⟩ | ⟨h1, h2, h3⟩
  · have hi := (isIntegerValue_iff s).2 ((intLiteral_exists s).2 ⟨n, h1⟩)
    have hr := (int32_iff n).1 h2
    simp only [hi, Bool.not_true, Bool.false_and, Bool.false_eq_true, if_false]
    rw [numArg_int s n h1 hr, Res.bind_ok, toInt_ofInt64 n hr]
  · have hf := (isFloatValue_iff s).2 h1
    simp only [hf, Bool.not_true, Bool.and_false, Bool.false_eq_true, if_false]
    rw [numArg_float s h2, Res.bind_ok, h3]

/-! ### Strings -/

theorem unescape_unquoted (b v : Str) (h : Unquoted b v) : unescape c!"\"" b = v := by
  induction h with
  | nil => rfl
  | @quote b v h ih =>
    cases b with
    | nil => cases h; rfl
    | cons x xs => simpa [unescape] using ih
  | @other c b v h1 h2 h ih =>
    cases b with
    | nil => cases h; rfl
    | cons x xs =>
      have : (c == c!"\\" && x == c!"\"") = false := by
        rw [Bool.eq_false_iff]; intro e; simp at e
        exact h2 e.1 (by simp [e.2])
      rw [unescape, this]; simp [ih]

theorem unquoted_exists (b : Str) (h : StringBody b) : Unquoted b (unescape c!"\"" b) := by
  have key : ∀ n, ∀ b : Str, b.length ≤ n → StringBody b → Unquoted b (unescape c!"\"" b) ∧
      ∀ c, c ≠ c!"\"" → b.head? ≠ some c!"\"" → Unquoted (c :: b) (unescape c!"\"" (c :: b)) := by
    intro n
    induction n with
    | zero =>
      intro b hb h
      have : b = [] := List.length_eq_zero_iff.1 (by omega)
      subst this
      exact ⟨.nil, fun c hc _ => .other hc (by simp) .nil⟩
    | succ n ih =>
      intro b hb h
      have first : Unquoted b (unescape c!"\"" b) := by
        cases h with
        | nil => exact .nil
        | @plain c s h1 h2 h =>
          have ih := ih s (by simp at hb; omega) h
          cases s with
          | nil => exact .other h1 (by simp) .nil
          | cons x xs =>
            have : (c == c!"\\" && x == c!"\"") = false := by simp [h2]
            rw [unescape, this]
            exact .other h1 (fun e => absurd e h2) ih.1
        | @escaped c s h =>
          have ih' := ih s (by simp at hb; omega) h
          rw [unescape]
          by_cases hc : c = c!"\""
          · subst hc
            simp only [beq_self_eq_true, Bool.and_self, if_true]
            cases s with
            | nil => exact .quote .nil
            | cons x xs => exact .quote ih'.1
          · have e : (c!"\\" == c!"\\" && c == c!"\"") = false := by simp [hc]
            rw [e]
            simp only [Bool.false_eq_true, if_false]
            refine .other (by decide) (by simpa using hc) ?_
            cases s with
            | nil => exact .other hc (by simp) .nil
            | cons x xs =>
              by_cases hx : x = c!"\""
              · subst hx
                -- a body does not start with a quote
                cases h with
                | plain h1 _ _ => exact absurd rfl h1
              · exact ih'.2 c hc (by simpa using hx)
      refine ⟨first, fun c hc hh => ?_⟩
      cases b with
      | nil => exact .other hc (by simp) .nil
      | cons x xs =>
        have e : (c == c!"\\" && x == c!"\"") = false := by
          rw [Bool.eq_false_iff]; intro e; simp at e; exact hh (by simp [e.2])
        rw [unescape, e]
        exact .other hc (fun _ => hh) first
  exact (key b.length b (Nat.le_refl _) h).1

theorem stringLit_quote (b : Str) (h : StringBody b) : stringLit (c!"\"" :: (b ++ [c!"\""])) = .ok (unescape c!"\"" b) := by
  unfold stringLit
  have h1 : isStringValue (c!"\"" :: (b ++ [c!"\""])) = true := (isStringValue_iff _).2 ⟨b, rfl, h⟩
  rw [h1]
  have : substr (c!"\"" :: (b ++ [c!"\""])) 1 ((c!"\"" :: (b ++ [c!"\""])).length - 2) = b := by simp [substr]
  rw [this]; rfl

theorem stringLit_denotes (s v : Str) (h : StringLiteral s v) : stringLit s = .ok v := by
  obtain ⟨b, rfl, hb, hu⟩ := h
  rw [stringLit_quote b hb, unescape_unquoted b v hu]

theorem stringLit_cases (s : Str) :
    (∃ v, stringLit s = .ok v ∧ StringLiteral s v) ∨ (stringLit s = .err .invalidArgument ∧ ¬ StringValue s) := by
  by_cases h : StringValue s
  · obtain ⟨b, rfl, hb⟩ := h
    exact .inl ⟨_, stringLit_quote b hb, b, rfl, hb, unquoted_exists b hb⟩
  · right
    refine ⟨?_, h⟩
    have : isStringValue s = false := by rw [Bool.eq_false_iff, ne_eq, isStringValue_iff]; exact h
    unfold stringLit; rw [this]; rfl

/-! ### The others -/

theorem booleanLit_cases (s : Str) :
    (∃ v, booleanLit s = .ok v ∧ Denotes b!"Boolean" s (.boolean v)) ∨
    (booleanLit s = .err .invalidArgument ∧ ¬ BooleanValue s) := by
  by_cases h : BooleanValue s
  · rcases h with rfl | rfl
    · exact .inl ⟨true, by decide, .true⟩
    · exact .inl ⟨false, by decide, .false⟩
  · right
    refine ⟨?_, h⟩
    have : isBooleanValue s = false := by rw [Bool.eq_false_iff, ne_eq, isBooleanValue_iff]; exact h
    unfold booleanLit; rw [this]; rfl

theorem characterLit_char (c : Byte) : characterLit [c!"'", c, c!"'"] = .ok c := by
  have : isCharacterValue [c!"'", c, c!"'"] = true := (isCharacterValue_iff _).2 ⟨c, rfl⟩
  unfold characterLit; rw [this]; rfl

theorem characterLit_cases (s : Str) :
    (∃ v, characterLit s = .ok v ∧ s = [c!"'", v, c!"'"]) ∨
    (characterLit s = .err .invalidArgument ∧ ¬ CharacterValue s) := by
  by_cases h : CharacterValue s
  · obtain ⟨c, rfl⟩ := h
    exact .inl ⟨c, characterLit_char c, rfl⟩
  · right
    refine ⟨?_, h⟩
    have : isCharacterValue s = false := by rw [Bool.eq_false_iff, ne_eq, isCharacterValue_iff]; exact h
    unfold characterLit; rw [this]; rfl

theorem floatLit_cases (s : Str) :
    (floatLit s = .ok (atof s).toF32 ∧ FloatValue s) ∨ (floatLit s = .err .invalidArgument ∧ ¬ FloatValue s) := by
  by_cases h : FloatValue s
  · left; refine ⟨?_, h⟩; unfold floatLit; rw [(isFloatValue_iff s).2 h]; rfl
  · right
    refine ⟨?_, h⟩
    have : isFloatValue s = false := by rw [Bool.eq_false_iff, ne_eq, isFloatValue_iff]; exact h
    unfold floatLit; rw [this]; rfl

/-- The types of objects. -/
theorem objectType_cases {P : Str → Prop} (t : Str) (ht : ObjectType t) (h1 : P b!"Boolean") (h2 : P b!"Character")
    (h3 : P b!"Integer") (h4 : P b!"Float") (h5 : P b!"String") : P t := by
  unfold ObjectType at ht
  simp only [List.mem_cons, List.not_mem_nil, or_false] at ht
  rcases ht with rfl | rfl | rfl | rfl | rfl <;> assumption

theorem gsi_boolean (s : Str) : getSharedInstance b!"Boolean" s = ((booleanLit s) >>= fun v => .ok (.boolean v)) := rfl
theorem gsi_character (s : Str) : getSharedInstance b!"Character" s = ((characterLit s) >>= fun v => .ok (.character v)) := rfl
theorem gsi_integer (s : Str) : getSharedInstance b!"Integer" s = ((integerLit s) >>= fun v => .ok (.integer v)) := rfl
theorem gsi_float (s : Str) : getSharedInstance b!"Float" s = ((floatLit s) >>= fun v => .ok (.float v)) := rfl
theorem gsi_string (s : Str) : getSharedInstance b!"String" s = ((stringLit s) >>= fun v => .ok (.string v)) := rfl

theorem literalOf_boolean (s : Str) : LiteralOf b!"Boolean" s ↔ BooleanValue s := by simp [LiteralOf]
theorem literalOf_character (s : Str) : LiteralOf b!"Character" s ↔ CharacterValue s := by simp [LiteralOf]
theorem literalOf_integer (s : Str) : LiteralOf b!"Integer" s ↔ IntegerValue s ∨ FloatValue s := by simp [LiteralOf]
theorem literalOf_float (s : Str) : LiteralOf b!"Float" s ↔ FloatValue s := by simp [LiteralOf]
theorem literalOf_string (s : Str) : LiteralOf b!"String" s ↔ StringValue s := by simp [LiteralOf]

theorem isF32_toF32' (x : Fl) : x.toF32.toF32 = x.toF32 := by
  cases x with
  | fin s k =>
    show (f32.round s k 1).toF32 = f32.round s k 1
    rcases Nat.lt_or_ge (f32.roundMag k 1) f32.lim with hlt | hge
    · rw [round_eq _ _ _ _ hlt]
      show f32.round s (f32.roundMag k 1) 1 = _
      have e := roundMag_rep f32 _ 1 (by omega) (rep_roundMag f32 f32_pos k 1 (by omega))
      rw [Nat.mul_one] at e
      rw [round_eq _ _ _ _ (by omega), e]
    · unfold Fmt.round; rw [if_pos hge]; rfl
  | inf s => rfl
  | nan => rfl

/-- The three outcomes of reading an argument of a given type. -/
theorem gsi_cases (t s : Str) (ht : ObjectType t) :
    (∃ o, getSharedInstance t s = .ok o ∧ Denotes t s o ∧ HasType t o) ∨
    (getSharedInstance t s = .err .invalidArgument ∧ ¬ LiteralOf t s) ∨
    (getSharedInstance t s = .ub ∧ t = b!"Integer" ∧ OutOfRange s) := by
  revert s
  refine objectType_cases (P := fun t => ∀ s, (∃ o, getSharedInstance t s = .ok o ∧ Denotes t s o ∧ HasType t o) ∨
    (getSharedInstance t s = .err .invalidArgument ∧ ¬ LiteralOf t s) ∨
    (getSharedInstance t s = .ub ∧ t = b!"Integer" ∧ OutOfRange s)) t ht ?_ ?_ ?_ ?_ ?_ <;> intro s
  · rw [gsi_boolean, literalOf_boolean]
    rcases booleanLit_cases s with ⟨v, h, hd⟩ | ⟨h, hn⟩ <;> rw [h]
    · exact .inl ⟨_, rfl, hd, rfl, trivial⟩
    · exact .inr (.inl ⟨rfl, hn⟩)
  · rw [gsi_character, literalOf_character]
    rcases characterLit_cases s with ⟨v, h, hd⟩ | ⟨h, hn⟩ <;> rw [h]
    · exact .inl ⟨_, rfl, hd ▸ .character v, rfl, trivial⟩
    · exact .inr (.inl ⟨rfl, hn⟩)
  · rw [gsi_integer]
    rcases integerLit_cases s with ⟨v, h, hd, hr⟩ | ⟨h, hn⟩ | ⟨h, hn⟩ <;> rw [h]
    · exact .inl ⟨_, rfl, hd, rfl, (int32_iff v).2 hr⟩
    · exact .inr (.inl ⟨rfl, hn⟩)
    · exact .inr (.inr ⟨rfl, rfl, hn⟩)
  · rw [gsi_float, literalOf_float]
    rcases floatLit_cases s with ⟨h, hd⟩ | ⟨h, hn⟩ <;> rw [h]
    · exact .inl ⟨_, rfl, .float hd, rfl, isF32_toF32' _⟩
    · exact .inr (.inl ⟨rfl, hn⟩)
  · rw [gsi_string, literalOf_string]
    rcases stringLit_cases s with ⟨v, h, hd⟩ | ⟨h, hn⟩ <;> rw [h]
    · exact .inl ⟨_, rfl, .string hd, rfl, trivial⟩
    · exact .inr (.inl ⟨rfl, hn⟩)

theorem gsi_denotes (t s : Str) (o : Obj) (h : Denotes t s o) : getSharedInstance t s = .ok o ∧ HasType t o := by
  cases h with
  | true => exact ⟨by decide, rfl, trivial⟩
  | false => exact ⟨by decide, rfl, trivial⟩
  | character c => rw [gsi_character, characterLit_char]; exact ⟨rfl, rfl, trivial⟩
  | @integer s n h1 h2 =>
    rw [gsi_integer, integerLit_denotes s n (.integer h1 h2)]
    exact ⟨rfl, rfl, h2⟩
  | @truncated s n h1 h2 h3 =>
    have := integerLit_denotes s n (.truncated h1 h2 h3)
    rw [gsi_integer, this]
    refine ⟨rfl, rfl, ?_⟩
    rcases integerLit_cases s with ⟨v, h, hd, hr⟩ | ⟨h, hn⟩ | ⟨h, hn⟩ <;> rw [this] at h
    · injection h with h; subst h; exact (int32_iff _).2 hr
    · cases h
    · cases h
  | @float s h1 =>
    rw [gsi_float]
    rcases floatLit_cases s with ⟨h, hd⟩ | ⟨h, hn⟩
    · rw [h]; exact ⟨rfl, rfl, isF32_toF32' _⟩
    · exact absurd h1 hn
  | @string s v h1 =>
    rw [gsi_string, stringLit_denotes s v h1]; exact ⟨rfl, rfl, trivial⟩

end Knuckle
