/-
Which error is reported: wrong message, wrong number of arguments, invalid argument.
-/
import Verif.Proofs.Scalars
import Verif.Proofs.SetDict
import Verif.Spec.Signatures

namespace Knuckle

open Spec

/-- The argument can be read. -/
def Good (k : ArgKind) (a : Str) : Prop := Fits k a ∧ ¬ Overflows k a

/-- The possible fates of a row of the dispatch table. -/
def RowCases {σ : Type} (old : σ) (ks : List ArgKind) (op : List Str → Run σ) : Prop := ∀ args,
  (args.length ≠ ks.length ∧ op args = .thr old .wrongNumberOfArguments) ∨
  (args.length = ks.length ∧ (∃ p ∈ ks.zip args, ¬ Fits p.1 p.2) ∧ op args = .thr old .invalidArgument) ∨
  (args.length = ks.length ∧ (∃ p ∈ ks.zip args, Overflows p.1 p.2) ∧ op args = .ub) ∨
  (args.length = ks.length ∧ ∀ p ∈ ks.zip args, Good p.1 p.2)

theorem row0 {σ : Type} (old : σ) (f : Res (σ × Str)) : RowCases old [] (op0 old f) := by
  intro args
  cases args with
  | nil => simp
  | cons a as => simp [op0]

theorem row1 {σ : Type} (old : σ) (k : ArgKind) (f : Str → Res (σ × Str))
    (h : ∀ a, (¬ Fits k a ∧ f a = .err .invalidArgument) ∨ (Overflows k a ∧ f a = .ub) ∨ Good k a) :
    RowCases old [k] (op1 old f) := by
  intro args
  match args with
  | [] => simp [op1]
  | [a] => rcases h a with ⟨h1, h2⟩ | ⟨h1, h2⟩ | h1 <;> simp [op1, Res.run, *]
  | _ :: _ :: _ => simp [op1]

theorem row2 {σ : Type} (old : σ) (k k' : ArgKind) (f : Str → Str → Res (σ × Str))
    (h : ∀ a b, ((¬ Fits k a ∨ ¬ Fits k' b) ∧ f a b = .err .invalidArgument) ∨
      ((Overflows k a ∨ Overflows k' b) ∧ f a b = .ub) ∨ (Good k a ∧ Good k' b)) :
    RowCases old [k, k'] (op2 old f) := by
  intro args
  match args with
  | [] => simp [op2]
  | [_] => simp [op2]
  | [a, b] => rcases h a b with ⟨h1, h2⟩ | ⟨h1, h2⟩ | h1 <;> simp [op2, Res.run, *]
  | _ :: _ :: _ :: _ => simp [op2]

theorem row3 {σ : Type} (old : σ) (k k' k'' : ArgKind) (f : Str → Str → Str → Res (σ × Str))
    (h : ∀ a b c, ((¬ Fits k a ∨ ¬ Fits k' b ∨ ¬ Fits k'' c) ∧ f a b c = .err .invalidArgument) ∨
      ((Overflows k a ∨ Overflows k' b ∨ Overflows k'' c) ∧ f a b c = .ub) ∨ (Good k a ∧ Good k' b ∧ Good k'' c)) :
    RowCases old [k, k', k''] (op3 old f) := by
  intro args
  match args with
  | [] => simp [op3]
  | [_] => simp [op3]
  | [_, _] => simp [op3]
  | [a, b, c] => rcases h a b c with ⟨h1, h2⟩ | ⟨h1, h2⟩ | h1 <;> simp [op3, Res.run, *]
  | _ :: _ :: _ :: _ :: _ => simp [op3]

/-! ### Reading arguments -/

/-- A literal is read: the value, or the error, or undefined behaviour. -/
theorem read_lit (t a : Str) (ht : ObjectType t) :
    (Good (.lit t) a ∧ ∃ o, getSharedInstance t a = .ok o) ∨
    (¬ Fits (.lit t) a ∧ getSharedInstance t a = .err .invalidArgument) ∨
    (Overflows (.lit t) a ∧ getSharedInstance t a = .ub) := by
  rcases gsi_cases t a ht with ⟨o, h, hd, _⟩ | ⟨h, hn⟩ | ⟨h, h1, h2⟩
  · refine .inl ⟨⟨?_, ?_⟩, o, h⟩
    · show LiteralOf t a
      rcases gsi_cases t a ht with h' | h' | h'
      · cases hd with
        | true => exact .inl ⟨rfl, .inl rfl⟩
        | false => exact .inl ⟨rfl, .inr rfl⟩
        | character c => exact .inr (.inl ⟨rfl, c, rfl⟩)
        | integer h1 h2 => exact .inr (.inr (.inl ⟨rfl, .inl ((intLiteral_exists a).2 ⟨_, h1⟩)⟩))
        | truncated h1 h2 h3 => exact .inr (.inr (.inl ⟨rfl, .inr h1⟩))
        | float hf => exact .inr (.inr (.inr (.inl ⟨rfl, hf⟩)))
        | string hs => obtain ⟨b, e, hb, _⟩ := hs; exact .inr (.inr (.inr (.inr ⟨rfl, b, e, hb⟩)))
      · rw [h] at h'; cases h'.1
      · rw [h] at h'; cases h'.1
    · rintro ⟨rfl, ho⟩
      rw [gsi_integer] at h
      unfold integerLit at h
      rcases ho with ⟨n, h1, h2⟩ | ⟨h1, h2, h3⟩
      · rw [(isIntegerValue_iff a).2 ((intLiteral_exists a).2 ⟨n, h1⟩),
          numArg_ub a n h1 (fun e => h2 ((int32_iff n).2 e))] at h
        simp at h
      · rw [(isFloatValue_iff a).2 h1, numArg_float a h2] at h
        simp only [Bool.not_true, Bool.and_false, Bool.false_eq_true, if_false, Res.bind_ok] at h
        rw [h3] at h; simp at h
  · exact .inr (.inl ⟨hn, h⟩)
  · exact .inr (.inr ⟨⟨h1, h2⟩, h⟩)

theorem ot_boolean : ObjectType b!"Boolean" := by unfold ObjectType; decide
theorem ot_character : ObjectType b!"Character" := by unfold ObjectType; decide
theorem ot_integer : ObjectType b!"Integer" := by unfold ObjectType; decide
theorem ot_float : ObjectType b!"Float" := by unfold ObjectType; decide
theorem ot_string : ObjectType b!"String" := by unfold ObjectType; decide

theorem read_bind {α β : Type} (r : Res α) (f : α → β) : (∃ v, (r >>= fun v => Res.ok (f v)) = .ok v) → ∃ v, r = .ok v := by
  rintro ⟨v, h⟩; cases r <;> simp at h; exact ⟨_, rfl⟩

theorem read_int (a : Str) :
    (Good (.lit b!"Integer") a ∧ ∃ n, integerLit a = .ok n) ∨
    (¬ Fits (.lit b!"Integer") a ∧ integerLit a = .err .invalidArgument) ∨
    (Overflows (.lit b!"Integer") a ∧ integerLit a = .ub) := by
  rcases read_lit b!"Integer" a ot_integer with ⟨h1, h2⟩ | ⟨h1, h2⟩ | ⟨h1, h2⟩ <;> rw [gsi_integer] at h2
  · exact .inl ⟨h1, read_bind _ _ h2⟩
  · refine .inr (.inl ⟨h1, ?_⟩); cases h : integerLit a <;> rw [h] at h2 <;> simp at h2; rw [h2]
  · refine .inr (.inr ⟨h1, ?_⟩); cases h : integerLit a <;> rw [h] at h2 <;> simp at h2

theorem not_over (t a : Str) (h : t ≠ b!"Integer") : ¬ Overflows (.lit t) a := fun e => h e.1

theorem read_str (a : Str) :
    (Good (.lit b!"String") a ∧ isStringValue a = true ∧ ∃ n, stringLit a = .ok n) ∨
    (¬ Fits (.lit b!"String") a ∧ isStringValue a = false ∧ stringLit a = .err .invalidArgument) := by
  rcases read_lit b!"String" a ot_string with ⟨h1, h2⟩ | ⟨h1, h2⟩ | ⟨h1, h2⟩
  · rw [gsi_string] at h2
    exact .inl ⟨h1, (isStringValue_iff a).2 ((literalOf_string a).1 h1.1), read_bind _ _ h2⟩
  · rw [gsi_string] at h2
    refine .inr ⟨h1, ?_, ?_⟩
    · rw [Bool.eq_false_iff, ne_eq, isStringValue_iff]; exact fun e => h1 ((literalOf_string a).2 e)
    · cases h : stringLit a <;> rw [h] at h2 <;> simp at h2; rw [h2]
  · exact absurd h1 (not_over _ _ (by decide))

theorem read_char (a : Str) :
    (Good (.lit b!"Character") a ∧ ∃ n, characterLit a = .ok n) ∨
    (¬ Fits (.lit b!"Character") a ∧ characterLit a = .err .invalidArgument) := by
  rcases read_lit b!"Character" a ot_character with ⟨h1, h2⟩ | ⟨h1, h2⟩ | ⟨h1, h2⟩
  · rw [gsi_character] at h2; exact .inl ⟨h1, read_bind _ _ h2⟩
  · rw [gsi_character] at h2
    refine .inr ⟨h1, ?_⟩
    cases h : characterLit a <;> rw [h] at h2 <;> simp at h2; rw [h2]
  · exact absurd h1 (not_over _ _ (by decide))

theorem read_bool (a : Str) :
    (Good (.lit b!"Boolean") a ∧ ∃ n, booleanLit a = .ok n) ∨
    (¬ Fits (.lit b!"Boolean") a ∧ booleanLit a = .err .invalidArgument) := by
  rcases read_lit b!"Boolean" a ot_boolean with ⟨h1, h2⟩ | ⟨h1, h2⟩ | ⟨h1, h2⟩
  · rw [gsi_boolean] at h2; exact .inl ⟨h1, read_bind _ _ h2⟩
  · rw [gsi_boolean] at h2
    refine .inr ⟨h1, ?_⟩
    cases h : booleanLit a <;> rw [h] at h2 <;> simp at h2; rw [h2]
  · exact absurd h1 (not_over _ _ (by decide))

theorem read_flt (a : Str) :
    (Good (.lit b!"Float") a ∧ isFloatValue a = true ∧ ∃ n, floatLit a = .ok n) ∨
    (¬ Fits (.lit b!"Float") a ∧ isFloatValue a = false ∧ floatLit a = .err .invalidArgument) := by
  rcases read_lit b!"Float" a ot_float with ⟨h1, h2⟩ | ⟨h1, h2⟩ | ⟨h1, h2⟩
  · rw [gsi_float] at h2
    exact .inl ⟨h1, (isFloatValue_iff a).2 ((literalOf_float a).1 h1.1), read_bind _ _ h2⟩
  · rw [gsi_float] at h2
    refine .inr ⟨h1, ?_, ?_⟩
    · rw [Bool.eq_false_iff, ne_eq, isFloatValue_iff]; exact fun e => h1 ((literalOf_float a).2 e)
    · cases h : floatLit a <;> rw [h] at h2 <;> simp at h2; rw [h2]
  · exact absurd h1 (not_over _ _ (by decide))

theorem read_num (a : Str) :
    (Good .number a ∧ ∃ x, NumDenotes a x) ∨
    (¬ Fits .number a ∧ isIntegerValue a = false ∧ isFloatValue a = false) ∨
    (Overflows .number a ∧ isIntegerValue a = true ∧ numArg a = .ub ∧ integerLit a = .ub) := by
  by_cases hi : IntegerValue a
  · obtain ⟨n, hn⟩ := (intLiteral_exists a).1 hi
    by_cases h32 : IsInt32 n
    · refine .inl ⟨⟨.inl hi, ?_⟩, _, .int hn h32⟩
      rintro ⟨m, hm, hm'⟩; rw [intLiteral_unique a m n hm hn] at hm'; exact hm' h32
    · refine .inr (.inr ⟨⟨n, hn, h32⟩, (isIntegerValue_iff a).2 hi, numArg_ub a n hn fun e => h32 ((int32_iff n).2 e), ?_⟩)
      unfold integerLit
      rw [(isIntegerValue_iff a).2 hi, numArg_ub a n hn fun e => h32 ((int32_iff n).2 e)]; simp
  · by_cases hf : FloatValue a
    · refine .inl ⟨⟨.inr hf, ?_⟩, _, .flt hf hi⟩
      rintro ⟨m, hm, _⟩; exact hi ((intLiteral_exists a).2 ⟨m, hm⟩)
    · refine .inr (.inl ⟨?_, ?_, ?_⟩)
      · rintro (h | h)
        · exact hi h
        · exact hf h
      · rw [Bool.eq_false_iff, ne_eq, isIntegerValue_iff]; exact hi
      · rw [Bool.eq_false_iff, ne_eq, isFloatValue_iff]; exact hf

/-! ### The tables -/

/-- Every row of the table has the fates given by its signature. -/
inductive TableCases {σ : Type} (old : σ) : List (Str × List ArgKind) → Table σ → Prop
  | nil : TableCases old [] []
  | cons {n ks op sg tb} : RowCases old ks op → TableCases old sg tb → TableCases old ((n, ks) :: sg) ((n, op) :: tb)

/-- What the table says about a message. -/
theorem table_cases {σ : Type} (old : σ) (sg : List (Str × List ArgKind)) (tb : Table σ) (h : TableCases old sg tb)
    (name : Str) (args : List Str) :
    ((∀ p ∈ sg, p.1 ≠ name) ∧ dispatch old tb name args = .thr old .invalidMessage) ∨
    (∃ ks, (name, ks) ∈ sg ∧ (
      (args.length ≠ ks.length ∧ dispatch old tb name args = .thr old .wrongNumberOfArguments) ∨
      (args.length = ks.length ∧ (∃ p ∈ ks.zip args, ¬ Fits p.1 p.2) ∧ dispatch old tb name args = .thr old .invalidArgument) ∨
      (args.length = ks.length ∧ (∃ p ∈ ks.zip args, Overflows p.1 p.2) ∧ dispatch old tb name args = .ub) ∨
      (args.length = ks.length ∧ ∀ p ∈ ks.zip args, Good p.1 p.2))) := by
  induction h with
  | nil => exact .inl ⟨by simp, rfl⟩
  | @cons n ks op sg tb hr _ ih =>
    by_cases e : name = n
    · subst e
      refine .inr ⟨ks, by simp, ?_⟩
      simp only [dispatch, beq_self_eq_true, if_true]
      exact hr args
    · have e' : (name == n) = false := by simpa using e
      simp only [dispatch, e', Bool.false_eq_true, if_false]
      rcases ih with ⟨h1, h2⟩ | ⟨ks', h1, h2⟩
      · refine .inl ⟨?_, h2⟩
        intro p hp
        rcases List.mem_cons.1 hp with rfl | hp
        · exact fun h => e h.symm
        · exact h1 p hp
      · exact .inr ⟨ks', by simp [h1], h2⟩


theorem bool_table (v : Bool) : TableCases v (signature (.boolean v)) (boolTable v) := by
  refine .cons (row0 _ _) (.cons (row1 _ _ _ fun a => ?_) (.cons (row0 _ _) (.cons (row0 _ _) .nil)))
  rcases read_bool a with ⟨h1, n, h2⟩ | ⟨h1, h2⟩ <;> simp [h1, h2]

theorem charCmp_row (cmp : Obj → Obj → Res Bool) (v : Byte) : RowCases v [.lit b!"Character"] (charCmp cmp v) := by
  refine row1 _ _ _ fun a => ?_
  rcases read_char a with ⟨h1, n, h2⟩ | ⟨h1, h2⟩ <;> simp [h1, h2]

theorem char_table (eps : Fl) (v : Byte) : TableCases v (signature (.character v)) (charTable eps v) := by
  refine .cons (row0 _ _) (.cons (row1 _ _ _ fun a => ?_) (.cons (row0 _ _) (.cons (row0 _ _) (.cons (row0 _ _)
    (.cons (row0 _ _) (.cons (charCmp_row _ _) (.cons (charCmp_row _ _) (.cons (charCmp_row _ _) (.cons (charCmp_row _ _)
    (.cons (charCmp_row _ _) .nil))))))))))
  rcases read_char a with ⟨h1, n, h2⟩ | ⟨h1, h2⟩ <;> simp [h1, h2]

theorem intCmp_row (cmp : Obj → Obj → Res Bool) (v : Int) : RowCases v [.number] (intCmp cmp v) := by
  refine row1 _ _ _ fun a => ?_
  rcases read_num a with ⟨h1, n, h2⟩ | ⟨h1, h2, h3⟩ | ⟨h1, h2, h3, h4⟩ <;> simp [*]

theorem intArith_row (f : Fl → Fl → Fl) (v : Int) : RowCases v [.number] (intArith f v) := by
  refine row1 _ _ _ fun a => ?_
  rcases read_num a with ⟨h1, n, h2⟩ | ⟨h1, h2, h3⟩ | ⟨h1, h2, h3, h4⟩ <;> simp [*]

theorem int_table (eps : Fl) (v : Int) : TableCases v (signature (.integer v)) (intTable eps v) := by
  refine .cons (row0 _ _) (.cons (row1 _ _ _ fun a => ?_) (.cons (intCmp_row _ _) (.cons (intCmp_row _ _)
    (.cons (intCmp_row _ _) (.cons (intCmp_row _ _) (.cons (intCmp_row _ _) (.cons (intArith_row _ _)
    (.cons (intArith_row _ _) (.cons (intArith_row _ _) (.cons (intArith_row _ _) .nil))))))))))
  rcases read_int a with ⟨h1, n, h2⟩ | ⟨h1, h2⟩ | ⟨h1, h2⟩ <;> simp [h1, h2]

theorem floatCmp_row (cmp : Obj → Obj → Res Bool) (v : Fl) : RowCases v [.lit b!"Float"] (floatCmp cmp v) := by
  refine row1 _ _ _ fun a => ?_
  rcases read_flt a with ⟨h1, _, n, h2⟩ | ⟨h1, _, h2⟩ <;> simp [h1, h2]

theorem floatArith_row (f : Fl → Fl → Fl) (v : Fl) : RowCases v [.lit b!"Float"] (floatArith f v) := by
  refine row1 _ _ _ fun a => ?_
  rcases read_flt a with ⟨h1, h3, n, h2⟩ | ⟨h1, h3, h2⟩ <;> simp [h1, h3]

theorem float_table (cfg : Cfg) (v : Fl) : TableCases v (signature (.float v)) (floatTable cfg v) := by
  refine .cons (row0 _ _) (.cons (row1 _ _ _ fun a => ?_) (.cons (floatCmp_row _ _) (.cons (floatCmp_row _ _)
    (.cons (floatCmp_row _ _) (.cons (floatCmp_row _ _) (.cons (floatCmp_row _ _) (.cons (floatArith_row _ _)
    (.cons (floatArith_row _ _) (.cons (floatArith_row _ _) (.cons (floatArith_row _ _) .nil))))))))))
  rcases read_flt a with ⟨h1, _, n, h2⟩ | ⟨h1, _, h2⟩ <;> simp [h1, h2]

theorem stringCmp_row (cmp : Obj → Obj → Res Bool) (v : Str) : RowCases v [.lit b!"String"] (stringCmp cmp v) := by
  refine row1 _ _ _ fun a => ?_
  rcases read_str a with ⟨h1, _, n, h2⟩ | ⟨h1, _, h2⟩ <;> simp [h1, h2]

/-- One-argument rows that begin by reading an integer. -/
theorem row_int {σ : Type} (old : σ) (g : Int → Res (σ × Str)) :
    RowCases old [.lit b!"Integer"] (op1 old fun a => integerLit a >>= g) := by
  refine row1 _ _ _ fun a => ?_
  rcases read_int a with ⟨h1, n, h2⟩ | ⟨h1, h2⟩ | ⟨h1, h2⟩ <;> simp [h1, h2]

theorem row_int2 {σ : Type} (old : σ) (g : Int → Int → Res (σ × Str)) :
    RowCases old [.lit b!"Integer", .lit b!"Integer"] (op2 old fun a b => integerLit a >>= fun i => integerLit b >>= g i) := by
  refine row2 _ _ _ _ fun a b => ?_
  rcases read_int a with ⟨h1, n, h2⟩ | ⟨h1, h2⟩ | ⟨h1, h2⟩ <;>
  rcases read_int b with ⟨h3, n', h4⟩ | ⟨h3, h4⟩ | ⟨h3, h4⟩ <;> simp [h1, h2, h3, h4]

theorem row_str {σ : Type} (old : σ) (g : Str → Res (σ × Str)) :
    RowCases old [.lit b!"String"] (op1 old fun a => stringLit a >>= g) := by
  refine row1 _ _ _ fun a => ?_
  rcases read_str a with ⟨h1, _, n, h2⟩ | ⟨h1, _, h2⟩ <;> simp [h1, h2]

theorem row_char {σ : Type} (old : σ) (g : Byte → Res (σ × Str)) :
    RowCases old [.lit b!"Character"] (op1 old fun a => characterLit a >>= g) := by
  refine row1 _ _ _ fun a => ?_
  rcases read_char a with ⟨h1, n, h2⟩ | ⟨h1, h2⟩ <;> simp [h1, h2]

theorem row_lit {σ : Type} (t : Str) (ht : ObjectType t) (old : σ) (g : Obj → Res (σ × Str)) :
    RowCases old [.lit t] (op1 old fun a => getSharedInstance t a >>= g) := by
  refine row1 _ _ _ fun a => ?_
  rcases read_lit t a ht with ⟨h1, n, h2⟩ | ⟨h1, h2⟩ | ⟨h1, h2⟩ <;> simp [h1, h2]

theorem row_lit_int {σ : Type} (t : Str) (ht : ObjectType t) (old : σ) (g : Obj → Int → Res (σ × Str)) :
    RowCases old [.lit t, .lit b!"Integer"] (op2 old fun a b => getSharedInstance t a >>= fun o => integerLit b >>= g o) := by
  refine row2 _ _ _ _ fun a b => ?_
  rcases read_lit t a ht with ⟨h1, n, h2⟩ | ⟨h1, h2⟩ | ⟨h1, h2⟩ <;>
  rcases read_int b with ⟨h3, n', h4⟩ | ⟨h3, h4⟩ | ⟨h3, h4⟩ <;> simp [h1, h2, h3, h4]

theorem row_lit2 {σ : Type} (t u : Str) (ht : ObjectType t) (hu : ObjectType u) (old : σ)
    (g : Str → Str → Obj → Obj → Res (σ × Str)) :
    RowCases old [.lit t, .lit u] (op2 old fun a b => getSharedInstance t a >>= fun o => getSharedInstance u b >>= g a b o) := by
  refine row2 _ _ _ _ fun a b => ?_
  rcases read_lit t a ht with ⟨h1, n, h2⟩ | ⟨h1, h2⟩ | ⟨h1, h2⟩ <;>
  rcases read_lit u b hu with ⟨h3, n', h4⟩ | ⟨h3, h4⟩ | ⟨h3, h4⟩ <;> simp [h1, h2, h3, h4]

theorem string_table (eps : Fl) (v : Str) : TableCases v (signature (.string v)) (stringTable eps v) := by
  refine .cons (row0 _ _) (.cons (row_str _ _) (.cons (row0 _ _) (.cons (row_str _ _) (.cons (row_str _ _)
    (.cons (stringCmp_row _ _) (.cons (stringCmp_row _ _) (.cons (stringCmp_row _ _) (.cons (stringCmp_row _ _)
    (.cons (stringCmp_row _ _) (.cons (row0 _ _) (.cons (row_int _ _) (.cons (row_int _ _) (.cons (row_int _ _)
    (.cons (row_int _ _) (.cons (row_int2 _ _) (.cons (row_char _ _) (.cons (row_char _ _) (.cons (row0 _ _)
    (.cons (row0 _ _) (.cons (row_int _ _) (.cons (row_str _ _) (.cons (row2 _ _ _ _ fun a b => ?_) (.cons (row_int _ _)
    (.cons (row_int2 _ _) (.cons (row0 _ _) .nil)))))))))))))))))))))))))
  rcases read_str a with ⟨h1, h5, n, h2⟩ | ⟨h1, h5, h2⟩ <;>
  rcases read_int b with ⟨h3, n', h4⟩ | ⟨h3, h4⟩ | ⟨h3, h4⟩ <;> simp [h1, h2, h3, h4, h5]

theorem removeAll_row (cfg : Cfg) (t : Str) (ht : ObjectType t) (l : List Obj) : RowCases l [.lit t] (vecRemoveAll cfg t l) := by
  intro args
  match args with
  | [] => simp [vecRemoveAll]
  | [a] =>
    rcases read_lit t a ht with ⟨h1, n, h2⟩ | ⟨h1, h2⟩ | ⟨h1, h2⟩ <;> simp [vecRemoveAll, h1, h2]
  | _ :: _ :: _ => simp [vecRemoveAll]

theorem replaceAll_row (cfg : Cfg) (t : Str) (ht : ObjectType t) (l : List Obj) :
    RowCases l [.lit t, .lit t] (vecReplaceAll cfg t l) := by
  intro args
  match args with
  | [] => simp [vecReplaceAll]
  | [_] => simp [vecReplaceAll]
  | [a, b] =>
    rcases read_lit t a ht with ⟨h1, n, h2⟩ | ⟨h1, h2⟩ | ⟨h1, h2⟩ <;>
    rcases read_lit t b ht with ⟨h3, n', h4⟩ | ⟨h3, h4⟩ | ⟨h3, h4⟩ <;> simp [vecReplaceAll, h1, h2, h3, h4]
  | _ :: _ :: _ :: _ => simp [vecReplaceAll]

theorem vector_table [StdSort] (cfg : Cfg) (t : Str) (ht : ObjectType t) (l : List Obj) :
    TableCases l (signature (.vector t l)) (vectorTable cfg t l) := by
  refine .cons (row0 _ _) (.cons (row0 _ _) (.cons (row_lit t ht _ _) (.cons (row_lit_int t ht _ _) (.cons (row_lit t ht _ _)
    (.cons (row_int _ _) (.cons (row_lit t ht _ _) (.cons (row_lit_int t ht _ _) (.cons (row_lit t ht _ _) (.cons (row0 _ _)
    (.cons (row_int _ _) (.cons (row_int _ _) (.cons (row_int _ _) (.cons (row_int2 _ _) (.cons (row_lit t ht _ _)
    (.cons (row_lit t ht _ _) (.cons (row0 _ _) (.cons (row0 _ _) (.cons (row_int _ _) (.cons (row_lit_int t ht _ _)
    (.cons (row_int _ _) (.cons (row_int2 _ _) (.cons (row_lit t ht _ _) (.cons (row_lit_int t ht _ _)
    (.cons (removeAll_row cfg t ht l) (.cons (row_lit2 t t ht ht _ fun a b o _ => do
      .ok (← replaceFirstLoop cfg.eps t b o [] l, b!"null")) (.cons (row3 _ _ _ _ _ fun a b c => ?_)
    (.cons (replaceAll_row cfg t ht l) (.cons (row0 _ _) (.cons (row0 _ _) (.cons (row0 _ _) .nil))))))))))))))))))))))))))))))
  rcases read_lit t a ht with ⟨h1, n, h2⟩ | ⟨h1, h2⟩ | ⟨h1, h2⟩ <;>
  rcases read_int b with ⟨h3, n', h4⟩ | ⟨h3, h4⟩ | ⟨h3, h4⟩ <;>
  rcases read_lit t c ht with ⟨h5, n'', h6⟩ | ⟨h5, h6⟩ | ⟨h5, h6⟩ <;> simp [h1, h2, h3, h4, h5, h6]

theorem set_table (cfg : Cfg) (t : Str) (ht : ObjectType t) (l : List Obj) :
    TableCases l (signature (.set t l)) (setTable cfg t l) :=
  .cons (row0 _ _) (.cons (row0 _ _) (.cons (row_lit t ht _ _) (.cons (row0 _ _) (.cons (row_lit t ht _ _)
    (.cons (row_lit t ht _ _) (.cons (row0 _ _) .nil))))))

theorem dictAssociate_row (cfg : Cfg) (t u : Str) (ht : ObjectType t) (hu : ObjectType u) (l : List (Obj × Obj)) :
    RowCases l [.lit u, .lit t] (dictAssociate cfg t u l) := by
  unfold dictAssociate
  refine row2 _ _ _ _ fun a b => ?_
  rcases read_lit u a hu with ⟨h1, n, h2⟩ | ⟨h1, h2⟩ | ⟨h1, h2⟩ <;>
  rcases read_lit t b ht with ⟨h3, n', h4⟩ | ⟨h3, h4⟩ | ⟨h3, h4⟩ <;> simp only [h2, h4, Res.bind_ok, Res.bind_err, Res.bind_ub] <;> simp [h1, h3]

theorem dict_table (cfg : Cfg) (t u : Str) (ht : ObjectType t) (hu : ObjectType u) (l : List (Obj × Obj)) :
    TableCases l (signature (.dictionary t u l)) (dictTable cfg t u l) := by
  refine .cons (row0 _ _) (.cons (row0 _ _) (.cons (row_lit t ht _ _) (.cons (row0 _ _) (.cons (row0 _ _) (.cons (row0 _ _)
    (.cons (row_lit t ht _ _) (.cons (dictAssociate_row cfg t u ht hu l) (.cons (row_lit t ht _ _) (.cons (row0 _ _) .nil)))))))))

end Knuckle
