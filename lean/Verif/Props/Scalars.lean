/-
C12–C16: integers, Booleans, characters, and the orders.
-/
import Verif.Proofs.Decimal
import Verif.Proofs.Compare
import Verif.Props.Demo

namespace Knuckle.Props

open Spec

variable {pwd pwd' : Str} {c c' : Ctx} {s s' : Option Session}

/-! ### C12 -/

/-- The canonical decimal form: no plus sign, no superfluous zero in front, no minus sign on zero. -/
def Canonical (a : Str) : Prop :=
  ∃ sg ds, a = sg ++ ds ∧ (sg = [] ∨ sg = b!"-" ∧ ds ≠ b!"0") ∧ (ds = b!"0" ∨ ds.head? ≠ some c!"0")

/-- C12: `get` prints the canonical decimal form of the value, which is an integer literal for it. -/
theorem C12_get [StdSort] {n t : Str} {v : Int} (hc : Reachable c) (hn : Holds c n (.integer v))
    (h : Statement t n b!"get" []) : ∃ r, JustReplies pwd c s t r ∧ IntLiteral r v ∧ Canonical r := by
  refine ⟨intStr v, justReplies_of hc hn (answers_int hc hn h .get), intStr_literal v, ?_⟩
  obtain ⟨h1, h2, h3, h4⟩ := natStr_spec v.natAbs
  have key : natStr v.natAbs = b!"0" ∨ (natStr v.natAbs).head? ≠ some c!"0" := by
    by_cases h0 : (natStr v.natAbs).head? = some c!"0"
    · left; rw [h4 h0]; rfl
    · exact .inr h0
  unfold intStr
  by_cases hv : v < 0
  · rw [if_pos hv]
    refine ⟨b!"-", _, rfl, .inr ⟨rfl, ?_⟩, key⟩
    intro (h0 : natStr v.natAbs = b!"0"); rw [h0] at h3; have : v.natAbs = 0 := by rw [← h3]; rfl
    omega
  · rw [if_neg hv]; exact ⟨[], _, rfl, .inl rfl, key⟩

/-- C12: `set:` with an integer literal for a 32-bit number (any sign, any leading zeros) stores that number. -/
theorem C12_set [StdSort] {n t a : Str} {v m : Int} (hc : Reachable c) (hn : Holds c n (.integer v))
    (ha : IntLiteral a m) (hm : IsInt32 m) (h : Statement t n b!"set:" [a]) :
    ∃ c₁, Replies pwd c s t b!"null" c₁ ∧ OnlyChanged c c₁ n (.integer m) :=
  answers_int hc hn h (.set (.integer ha hm))

/-- C12: round trip: the reply of `get` can be given to `set:` of any integer variable, which then holds the same number. -/
theorem C12_round_trip [StdSort] {n n' t t' r : Str} {v v' : Int} (hc : Reachable c) (hn : Holds c n (.integer v))
    (hn' : Holds c n' (.integer v')) (h : Statement t n b!"get" []) (hr : JustReplies pwd c s t r)
    (h' : Statement t' n' b!"set:" [r]) :
    ∃ c₁, Replies pwd c s t' b!"null" c₁ ∧ OnlyChanged c c₁ n' (.integer v) := by
  obtain ⟨r', ⟨d, hd, _⟩, hl, _⟩ := C12_get (pwd := pwd) (s := s) hc hn h
  obtain ⟨e, he, _⟩ := hr
  have : r' = r := by
    unfold Replies at hd he; rw [hd] at he
    injection he with he; injection he with _ he; injection he
  subst this
  exact C12_set hc hn' hl (holds_wellTyped hc hn) h'

/-- C12: every 32-bit number is the value of a literal, and different numbers have different texts. -/
theorem C12_decimal_form (n m : Int) : IntLiteral (intStr n) n ∧ (intStr n = intStr m → n = m) :=
  ⟨intStr_literal n, intStr_inj n m⟩


example : IntLiteral b!"-0042" (-42) ∧ IsInt32 (-42) ∧ Canonical b!"-42" :=
  ⟨⟨b!"-", b!"0042", rfl, .inr (.inr rfl), by simp, by unfold Digits Digit; decide, rfl⟩, by decide,
    b!"-", b!"42", rfl, .inr ⟨rfl, by decide⟩, .inr (by decide)⟩

example [StdSort] : JustReplies [] demo none b!"i get;" b!"-7" :=
  justReplies_of (n := b!"i") (i := .integer (-7)) demo_reachable (by decide +kernel)
    (answers_int demo_reachable (n := b!"i") (v := -7) (by decide +kernel) (reads (by decide +kernel)) .get)

/-! ### C13, C14 -/

/-- The arithmetic messages and the operations on mathematical integers they stand for; division truncates toward zero. -/
def intOps : List (Str × (Int → Int → Int)) :=
  [(b!"add:", (· + ·)), (b!"subtract:", (· - ·)), (b!"multiplyBy:", (· * ·)), (b!"divideBy:", Int.tdiv)]

/-- What an arithmetic message with an integer literal does. -/
theorem int_arith_answers [StdSort] {n t a name : Str} {v m : Int} {f : Int → Int → Int} (hc : Reachable c)
    (hn : Holds c n (.integer v)) (ha : IntLiteral a m) (hm : IsInt32 m) (ho : (name, f) ∈ intOps) (h : Statement t n name [a]) :
    Answers pwd c s t n
      (if name = b!"divideBy:" ∧ m = 0 then .undefined
       else if IsInt32 (f v m) then .gives (.integer (f v m)) b!"null" else .undefined) := by
  have hx : ∀ k : Int, (exactly k).map Inst.integer = if IsInt32 k then .gives (.integer k) b!"null" else .undefined := by
    intro k; unfold exactly; split <;> rfl
  simp only [intOps, List.mem_cons, Prod.mk.injEq, List.not_mem_nil, or_false] at ho
  rcases ho with ⟨rfl, rfl⟩ | ⟨rfl, rfl⟩ | ⟨rfl, rfl⟩ | ⟨rfl, rfl⟩
  · have := answers_int (pwd := pwd) (s := s) hc hn h (.add (.int ha hm))
    rw [intMeaning, hx] at this
    rw [if_neg (fun e => absurd e.1 (by decide))]; exact this
  · have := answers_int (pwd := pwd) (s := s) hc hn h (.subtract (.int ha hm))
    rw [intMeaning, hx] at this
    rw [if_neg (fun e => absurd e.1 (by decide))]; exact this
  · have := answers_int (pwd := pwd) (s := s) hc hn h (.multiplyBy (.int ha hm))
    rw [intMeaning, hx] at this
    rw [if_neg (fun e => absurd e.1 (by decide))]; exact this
  · have := answers_int (pwd := pwd) (s := s) hc hn h (.divideBy (.int ha hm))
    rw [intMeaning] at this
    by_cases h0 : m = 0
    · rw [if_pos h0] at this; rw [if_pos ⟨rfl, h0⟩]; exact this
    · rw [if_neg h0, hx] at this; rw [if_neg (fun e => h0 e.2)]; exact this

/-- C13: `add:`, `subtract:`, `multiplyBy:` and `divideBy:` a non-zero literal store the exact result (the quotient
truncated toward zero) whenever it is a 32-bit number. -/
theorem C13_exact [StdSort] {n t a name : Str} {v m : Int} {f : Int → Int → Int} (hc : Reachable c)
    (hn : Holds c n (.integer v)) (ha : IntLiteral a m) (hm : IsInt32 m) (ho : (name, f) ∈ intOps)
    (h0 : name = b!"divideBy:" → m ≠ 0) (hf : IsInt32 (f v m)) (h : Statement t n name [a]) :
    ∃ c₁, Replies pwd c s t b!"null" c₁ ∧ OnlyChanged c c₁ n (.integer (f v m)) := by
  have := int_arith_answers (pwd := pwd) (s := s) hc hn ha hm ho h
  rw [if_neg (fun e => h0 e.1 e.2), if_pos hf] at this
  exact this

/-- A case where the product has 62 bits before it is known to fit, and a negative quotient. -/
example [StdSort] : ∃ c₁, Replies [] demo none b!"i divideBy: 2;" b!"null" c₁ ∧ OnlyChanged demo c₁ b!"i" (.integer (-3)) :=
  C13_exact (a := b!"2") (m := 2) (v := -7) (name := b!"divideBy:") (f := Int.tdiv) demo_reachable (by decide +kernel)
    ⟨[], b!"2", rfl, .inl rfl, by simp, by unfold Digits Digit; decide, rfl⟩ (by decide) (by simp [intOps])
    (by decide) (by decide) (reads (by decide +kernel))

/-- A literal that is out of range makes any message that reads it as a number undefined behaviour. -/
theorem int_overflow_ub [StdSort] {n t a name : Str} {v m : Int} {k : ArgKind} (hc : Reachable c)
    (hn : Holds c n (.integer v)) (ha : IntLiteral a m) (hm : ¬ IsInt32 m) (hs : (name, [k]) ∈ signature (.integer v))
    (hk : k = .number ∨ k = .lit b!"Integer") (h : Statement t n name [a]) : execute pwd c s t = .ub := by
  have hov : Overflows k a := by
    rcases hk with rfl | rfl
    · exact ⟨m, ha, hm⟩
    · exact ⟨rfl, .inl ⟨m, ha, hm⟩⟩
  have hfit : Fits k a := by
    have hi := (intLiteral_exists a).2 ⟨m, ha⟩
    rcases hk with rfl | rfl
    · exact .inl hi
    · exact (literalOf_integer a).2 (.inl hi)
  have hone : ∀ ks, (name, ks) ∈ signature (.integer v) → ks = [k] := by
    intro ks hks
    simp only [signature, List.mem_cons, Prod.mk.injEq, List.not_mem_nil, or_false] at hs hks
    rcases hs with ⟨rfl, e⟩ | ⟨rfl, e⟩ | ⟨rfl, e⟩ | ⟨rfl, e⟩ | ⟨rfl, e⟩ | ⟨rfl, e⟩ | ⟨rfl, e⟩ | ⟨rfl, e⟩ | ⟨rfl, e⟩ | ⟨rfl, e⟩ | ⟨rfl, e⟩ <;>
      rw [e] <;> simpa using hks
  rcases answers_any (pwd := pwd) (s := s) hc hn h with ⟨h1, _⟩ | ⟨ks, hk', h'⟩
  · exact absurd rfl (h1 _ hs)
  · have := hone ks hk'
    subst this
    rcases h' with ⟨h1, _⟩ | ⟨_, ⟨p, hp, h1⟩, _⟩ | ⟨_, _, h1⟩ | ⟨_, h1, _⟩
    · exact absurd rfl h1
    · simp at hp; subst hp; exact absurd hfit h1
    · exact h1
    · exact absurd hov (h1 (k, a) (by simp)).2

/-- C14, arithmetic: undefined exactly when the literal is out of range, the divisor is zero, or the exact result is out of
range. -/
theorem C14_arithmetic_undefined_iff [StdSort] {n t a name : Str} {v m : Int} {f : Int → Int → Int} (hc : Reachable c)
    (hn : Holds c n (.integer v)) (ha : IntLiteral a m) (ho : (name, f) ∈ intOps) (h : Statement t n name [a]) :
    execute pwd c s t = .ub ↔ ¬ IsInt32 m ∨ (name = b!"divideBy:" ∧ m = 0) ∨ ¬ IsInt32 (f v m) := by
  by_cases hm : IsInt32 m
  · have := int_arith_answers (pwd := pwd) (s := s) hc hn ha hm ho h
    by_cases h0 : name = b!"divideBy:" ∧ m = 0
    · rw [if_pos h0] at this; exact ⟨fun _ => .inr (.inl h0), fun _ => this⟩
    · rw [if_neg h0] at this
      by_cases hf : IsInt32 (f v m)
      · rw [if_pos hf] at this
        obtain ⟨c₁, hr, _⟩ := this
        constructor
        · intro e; unfold Replies at hr; rw [e] at hr; cases hr
        · rintro (h' | h' | h')
          · exact absurd hm h'
          · exact absurd h' h0
          · exact absurd hf h'
      · rw [if_neg hf] at this; exact ⟨fun _ => .inr (.inr hf), fun _ => this⟩
  · refine ⟨fun _ => .inl hm, fun _ => int_overflow_ub (k := .number) hc hn ha hm ?_ (.inl rfl) h⟩
    simp only [intOps, List.mem_cons, Prod.mk.injEq, List.not_mem_nil, or_false] at ho
    rcases ho with ⟨rfl, _⟩ | ⟨rfl, _⟩ | ⟨rfl, _⟩ | ⟨rfl, _⟩ <;> simp [signature]

/-- C14, `set:`: undefined exactly when the literal is out of range. -/
theorem C14_set_undefined_iff [StdSort] {n t a : Str} {v m : Int} (hc : Reachable c) (hn : Holds c n (.integer v))
    (ha : IntLiteral a m) (h : Statement t n b!"set:" [a]) : execute pwd c s t = .ub ↔ ¬ IsInt32 m := by
  by_cases hm : IsInt32 m
  · obtain ⟨c₁, hr, _⟩ := C12_set (pwd := pwd) (s := s) hc hn ha hm h
    unfold Replies at hr
    rw [hr]; simp [hm]
  · refine ⟨fun _ => hm, fun _ => int_overflow_ub (k := .lit b!"Integer") hc hn ha hm (by simp [signature]) (.inr rfl) h⟩

/-- The comparison messages and the relations they stand for. -/
def intRels : List (Str × (Int → Int → Bool)) :=
  [(b!"isEqualTo?", fun x y => decide (x = y)), (b!"isLessThan?", fun x y => decide (x < y)),
   (b!"isLessThanOrEqualTo?", fun x y => decide (x ≤ y)), (b!"isGreaterThan?", fun x y => decide (x > y)),
   (b!"isGreaterThanOrEqualTo?", fun x y => decide (x ≥ y))]

/-- C16, integers: the comparison messages report the order of the integers. -/
theorem C16_integers [StdSort] {n t a name : Str} {v m : Int} {f : Int → Int → Bool} (hc : Reachable c)
    (hn : Holds c n (.integer v)) (ha : IntLiteral a m) (hm : IsInt32 m) (ho : (name, f) ∈ intRels) (h : Statement t n name [a]) :
    JustReplies pwd c s t (if f v m then b!"true" else b!"false") := by
  have key : ∀ p : Prop, [Decidable p] → (if decide p = true then b!"true" else b!"false") = truth p := by
    intro p _; unfold truth; by_cases hp : p <;> simp [hp]
  simp only [intRels, List.mem_cons, Prod.mk.injEq, List.not_mem_nil, or_false] at ho
  rcases ho with ⟨rfl, rfl⟩ | ⟨rfl, rfl⟩ | ⟨rfl, rfl⟩ | ⟨rfl, rfl⟩ | ⟨rfl, rfl⟩ <;> simp only [key]
  · exact justReplies_of hc hn (answers_int (pwd := pwd) (s := s) hc hn h (.eq (.int ha hm)))
  · exact justReplies_of hc hn (answers_int (pwd := pwd) (s := s) hc hn h (.lt (.int ha hm)))
  · exact justReplies_of hc hn (answers_int (pwd := pwd) (s := s) hc hn h (.le (.int ha hm)))
  · exact justReplies_of hc hn (answers_int (pwd := pwd) (s := s) hc hn h (.gt (.int ha hm)))
  · exact justReplies_of hc hn (answers_int (pwd := pwd) (s := s) hc hn h (.ge (.int ha hm)))

/-- C14, comparisons: undefined exactly when the literal is out of range. -/
theorem C14_comparison_undefined_iff [StdSort] {n t a name : Str} {v m : Int} {f : Int → Int → Bool} (hc : Reachable c)
    (hn : Holds c n (.integer v)) (ha : IntLiteral a m) (ho : (name, f) ∈ intRels) (h : Statement t n name [a]) :
    execute pwd c s t = .ub ↔ ¬ IsInt32 m := by
  by_cases hm : IsInt32 m
  · obtain ⟨c₁, hr, _⟩ := C16_integers (pwd := pwd) (s := s) hc hn ha hm ho h
    unfold Replies at hr
    rw [hr]; simp [hm]
  · refine ⟨fun _ => hm, fun _ => int_overflow_ub (k := .number) hc hn ha hm ?_ (.inl rfl) h⟩
    simp only [intRels, List.mem_cons, Prod.mk.injEq, List.not_mem_nil, or_false] at ho
    rcases ho with ⟨rfl, _⟩ | ⟨rfl, _⟩ | ⟨rfl, _⟩ | ⟨rfl, _⟩ | ⟨rfl, _⟩ <;> simp [signature]

/-- An overflowing product, and a literal out of range. -/
example [StdSort] : execute [] demo none b!"i multiplyBy: 400000000;" = .ub ∧ execute [] demo none b!"i set: 2147483648;" = .ub :=
  ⟨(C14_arithmetic_undefined_iff (a := b!"400000000") (m := 400000000) (v := -7) (n := b!"i") (name := b!"multiplyBy:") (f := (· * ·)) demo_reachable (by decide +kernel)
    ⟨[], b!"400000000", rfl, .inl rfl, by simp, by unfold Digits Digit; decide, rfl⟩ (by simp [intOps])
    (reads (by decide +kernel))).2 (.inr (.inr (by decide))),
   (C14_set_undefined_iff (a := b!"2147483648") (m := 2147483648) (v := -7) (n := b!"i") demo_reachable (by decide +kernel)
    ⟨[], b!"2147483648", rfl, .inl rfl, by simp, by unfold Digits Digit; decide, rfl⟩
    (reads (by decide +kernel))).2 (by decide)⟩

/-! ### C15 -/

/-- C15, Booleans: after `set:` with a Boolean literal `get` returns it. -/
theorem C15_boolean_round_trip [StdSort] {n t₁ t₂ a : Str} {v : Bool} (hc : Reachable c) (hn : Holds c n (.boolean v))
    (ha : BooleanValue a) (h₁ : Statement t₁ n b!"set:" [a]) (h₂ : Statement t₂ n b!"get" []) :
    ∃ c₁, Replies pwd c s t₁ b!"null" c₁ ∧ ∀ pwd' s', JustReplies pwd' c₁ s' t₂ a := by
  obtain ⟨w, hw, e⟩ : ∃ w : Bool, Denotes b!"Boolean" a (.boolean w) ∧ truth (w = true) = a := by
    rcases ha with rfl | rfl
    · exact ⟨true, .true, rfl⟩
    · exact ⟨false, .false, rfl⟩
  obtain ⟨c₁, hr, ho⟩ := answers_bool (pwd := pwd) (s := s) hc hn h₁ (.set hw)
  have hn₁ : Holds c₁ n (.boolean w) := by unfold Holds; rw [ho.2.2, if_pos rfl]
  refine ⟨c₁, hr, fun pwd' s' => ?_⟩
  have hc₁ : Reachable c₁ := .step hc hr
  have := justReplies_of hc₁ hn₁ (answers_bool (pwd := pwd') (s := s') hc₁ hn₁ h₂ .get)
  rwa [e] at this

/-- C15: `isTrue?` and `isFalse?` are complementary. -/
theorem C15_isTrue_isFalse [StdSort] {n t₁ t₂ : Str} {v : Bool} (hc : Reachable c) (hn : Holds c n (.boolean v))
    (h₁ : Statement t₁ n b!"isTrue?" []) (h₂ : Statement t₂ n b!"isFalse?" []) :
    (v = true ∧ JustReplies pwd c s t₁ b!"true" ∧ JustReplies pwd c s t₂ b!"false") ∨
    (v = false ∧ JustReplies pwd c s t₁ b!"false" ∧ JustReplies pwd c s t₂ b!"true") := by
  have r₁ := justReplies_of hc hn (answers_bool (pwd := pwd) (s := s) hc hn h₁ .isTrue)
  have r₂ := justReplies_of hc hn (answers_bool (pwd := pwd) (s := s) hc hn h₂ .isFalse)
  cases v with
  | true => exact .inl ⟨rfl, r₁, r₂⟩
  | false => exact .inr ⟨rfl, r₁, r₂⟩

/-- C15, characters: after `set:` with a character literal (any byte between the quotes) `get` returns it. -/
theorem C15_character_round_trip [StdSort] {n t₁ t₂ a : Str} {v : Byte} (hc : Reachable c) (hn : Holds c n (.character v))
    (ha : CharacterValue a) (h₁ : Statement t₁ n b!"set:" [a]) (h₂ : Statement t₂ n b!"get" []) :
    ∃ c₁, Replies pwd c s t₁ b!"null" c₁ ∧ ∀ pwd' s', JustReplies pwd' c₁ s' t₂ a := by
  obtain ⟨b, rfl⟩ := ha
  obtain ⟨c₁, hr, ho⟩ := answers_char (pwd := pwd) (s := s) hc hn h₁ .set
  have hn₁ : Holds c₁ n (.character b) := by unfold Holds; rw [ho.2.2, if_pos rfl]
  have hc₁ : Reachable c₁ := .step hc hr
  exact ⟨c₁, hr, fun pwd' s' => justReplies_of hc₁ hn₁ (answers_char (pwd := pwd') (s := s') hc₁ hn₁ h₂ .get)⟩

example : Holds demo b!"b" (.boolean true) ∧ Holds demo b!"a::c" (.character c!"x") ∧
    Statement b!"b set: false;" b!"b" b!"set:" [b!"false"] ∧ Statement b!"a::c set: ';';" b!"a::c" b!"set:" [b!"';'"] :=
  ⟨by decide +kernel, by decide +kernel, reads (by decide +kernel), reads (by decide +kernel)⟩

/-! ### C16 -/

/-- C16, characters: the comparison messages report the order of the bytes as signed numbers. -/
theorem C16_characters [StdSort] {n t name : Str} {v w : Byte} {f : Int → Int → Bool} (hc : Reachable c)
    (hn : Holds c n (.character v)) (ho : (name, f) ∈ intRels) (h : Statement t n name [[c!"'", w, c!"'"]]) :
    JustReplies pwd c s t (if f (signed v) (signed w) then b!"true" else b!"false") := by
  have key : ∀ p : Prop, [Decidable p] → (if decide p = true then b!"true" else b!"false") = truth p := by
    intro p _; unfold truth; by_cases hp : p <;> simp [hp]
  simp only [intRels, List.mem_cons, Prod.mk.injEq, List.not_mem_nil, or_false] at ho
  rcases ho with ⟨rfl, rfl⟩ | ⟨rfl, rfl⟩ | ⟨rfl, rfl⟩ | ⟨rfl, rfl⟩ | ⟨rfl, rfl⟩ <;> simp only [key]
  · have := justReplies_of hc hn (answers_char (pwd := pwd) (s := s) hc hn h .eq)
    have e : truth (signed v = signed w) = truth (v = w) := by simp only [truth, signed_inj]
    rw [e]; exact this
  · exact justReplies_of hc hn (answers_char (pwd := pwd) (s := s) hc hn h .lt)
  · exact justReplies_of hc hn (answers_char (pwd := pwd) (s := s) hc hn h .le)
  · exact justReplies_of hc hn (answers_char (pwd := pwd) (s := s) hc hn h .gt)
  · exact justReplies_of hc hn (answers_char (pwd := pwd) (s := s) hc hn h .ge)

/-- C16: different bytes are different as signed numbers, so the order of characters is total. -/
theorem C16_characters_distinct (v w : Byte) : signed v = signed w ↔ v = w := signed_inj v w

/-- The comparison messages of strings and the relations they stand for; the order is the lexicographic order on unsigned
bytes. -/
def strRels : List (Str × (Str → Str → Bool)) :=
  [(b!"isLexicographicallyEqualTo?", fun x y => decide (x = y)), (b!"isLexicographicallyLessThan?", fun x y => decide (x < y)),
   (b!"isLexicographicallyLessThanOrEqualTo?", fun x y => decide (x < y ∨ x = y)),
   (b!"isLexicographicallyGreaterThan?", fun x y => decide (y < x)),
   (b!"isLexicographicallyGreaterThanOrEqualTo?", fun x y => decide (y < x ∨ x = y))]

/-- C16, strings: the comparison messages report the lexicographic order of the bytes. -/
theorem C16_strings [StdSort] {n t a name : Str} {v w : Str} {f : Str → Str → Bool} (hc : Reachable c)
    (hn : Holds c n (.string v)) (ha : StringLiteral a w) (ho : (name, f) ∈ strRels) (h : Statement t n name [a]) :
    JustReplies pwd c s t (if f v w then b!"true" else b!"false") := by
  have key : ∀ p : Prop, [Decidable p] → (if decide p = true then b!"true" else b!"false") = truth p := by
    intro p _; unfold truth; by_cases hp : p <;> simp [hp]
  simp only [strRels, List.mem_cons, Prod.mk.injEq, List.not_mem_nil, or_false] at ho
  rcases ho with ⟨rfl, rfl⟩ | ⟨rfl, rfl⟩ | ⟨rfl, rfl⟩ | ⟨rfl, rfl⟩ | ⟨rfl, rfl⟩ <;> simp only [key]
  · exact justReplies_of hc hn (answers_str (pwd := pwd) (s := s) hc hn h (.eq ha))
  · exact justReplies_of hc hn (answers_str (pwd := pwd) (s := s) hc hn h (.lt ha))
  · exact justReplies_of hc hn (answers_str (pwd := pwd) (s := s) hc hn h (.le ha))
  · exact justReplies_of hc hn (answers_str (pwd := pwd) (s := s) hc hn h (.gt ha))
  · exact justReplies_of hc hn (answers_str (pwd := pwd) (s := s) hc hn h (.ge ha))

/-- C16: the order of byte strings is a strict total order. -/
theorem C16_strings_order : (∀ v : Str, ¬ v < v) ∧ (∀ u v w : Str, u < v → v < w → u < w) ∧
    (∀ v w : Str, v < w ∨ v = w ∨ w < v) ∧ (∀ v w : Str, v < w → ¬ w < v) := by
  have e : ∀ a b : Str, a < b ↔ strLt a b = true := by intro a b; rw [strLt_eq]; simp
  refine ⟨fun v => ?_, fun u v w => ?_, fun v w => ?_, fun v w => ?_⟩
  · rw [e, strLt_irrefl]; decide
  · rw [e, e, e]; exact strLt_trans u v w
  · rw [e, e]
    cases h1 : strLt v w with
    | true => exact .inl rfl
    | false => cases h2 : strLt w v with
      | true => exact .inr (.inr rfl)
      | false => exact .inr (.inl (strLt_total v w h1 h2))
  · rw [e, e]; intro h; rw [strLt_asymm v w h]; decide

/-- C16: the order in which vectors are sorted and sets and dictionaries kept (`natLt`, for Booleans, characters, integers
and strings) is a strict total order on the values of one type: exactly one of less, identical, greater. -/
theorem C16_natural_order (t : Str) (ht : t ≠ b!"Float") :
    (∀ a, HasType t a → natLt a a = false) ∧
    (∀ a b d, HasType t a → HasType t b → HasType t d → natLt a b = true → natLt b d = true → natLt a d = true) ∧
    (∀ a b, HasType t a → HasType t b → natLt a b = true ∨ a = b ∨ natLt b a = true) ∧
    (∀ a b, HasType t a → HasType t b → natLt a b = true → natLt b a = false) := by
  have h := natLt_sto t ht
  refine ⟨h.irr, h.tr, fun a b ha hb => ?_, fun a b ha hb => h.swo.asymm ha hb⟩
  cases h1 : natLt a b with
  | true => exact .inl rfl
  | false => cases h2 : natLt b a with
    | true => exact .inr (.inr rfl)
    | false => exact .inr (.inl (h.tot a b ha hb h1 h2))

/-- C16: the comparator of the program is that order (so the messages and the containers agree). -/
theorem C16_comparator (eps : Fl) (t : Str) (a b : Obj) (ha : HasType t a) (hb : HasType t b) (ht : t ≠ b!"Float") :
    lessThan eps a b = .ok (natLt a b) ∧ greaterThan eps a b = .ok (natLt b a) ∧
    equalTo eps a b = .ok (decide (a = b)) := by
  refine ⟨by rw [lessThan_ok eps t a b ha hb, ltB_natLt eps t a b ha hb ht], ?_, ?_⟩
  · have hta := ha.1
    revert hta
    refine hasType_cases (P := fun a b => a.type = t → greaterThan eps a b = .ok (natLt b a)) t a b ha hb ?_ ?_ ?_ ?_ ?_
    · intro x y _; cases x <;> cases y <;> rfl
    · intro x y _; rfl
    · intro x y _ _ _; rfl
    · intro x y _ _ h; exact absurd h.symm ht
    · intro x y _; simp only [greaterThan, natLt, strLt_eq]
  · rw [equalTo_same eps t a b ha hb]
    have hta := ha.1
    revert hta
    refine hasType_cases (P := fun a b => a.type = t → (.ok (same eps a b) : Res Bool) = .ok (decide (a = b))) t a b ha hb ?_ ?_ ?_ ?_ ?_
    · intro x y _; rfl
    · intro x y _; rfl
    · intro x y _ _ _; rfl
    · intro x y _ _ h; exact absurd h.symm ht
    · intro x y _; rfl

example : HasType b!"Character" (.character 200) ∧ HasType b!"Character" (.character 100) ∧
    natLt (.character 200) (.character 100) = true := by
  refine ⟨⟨rfl, trivial⟩, ⟨rfl, trivial⟩, by decide⟩

/-! ### Every theorem applied to a case -/

theorem lit_minus40 : IntLiteral b!"-40" (-40) :=
  ⟨b!"-", b!"40", rfl, .inr (.inr rfl), by simp, by unfold Digits Digit; decide, rfl⟩

example [StdSort] := C12_get (pwd := []) (s := none) (c := demo) (n := b!"i") (t := b!"i get;") (v := -7) (by meets) (by meets) (by meets)
example [StdSort] := C12_set (pwd := []) (s := none) (c := demo) (n := b!"i") (t := b!"i set: -40;") (v := -7) (by meets) (by meets) lit_minus40
  (by decide) (by meets)
example [StdSort] := C12_round_trip (pwd := []) (s := none) (c := demo) (n := b!"i") (n' := b!"i") (t := b!"i get;") (t' := b!"i set: -7;")
  (r := b!"-7") (v := -7) (v' := -7) (by meets) (by meets) (by meets) (by meets) (by meets) (by meets)
example [StdSort] := C14_arithmetic_undefined_iff (pwd := []) (s := none) (c := demo) (n := b!"i") (t := b!"i multiplyBy: -40;") (v := -7)
  (by meets) (by meets) lit_minus40 (.tail _ (.tail _ (.head _))) (by meets)
example [StdSort] := C14_set_undefined_iff (pwd := []) (s := none) (c := demo) (n := b!"i") (t := b!"i set: -40;") (v := -7) (by meets) (by meets)
  lit_minus40 (by meets)
example [StdSort] := C16_integers (pwd := []) (s := none) (c := demo) (n := b!"i") (t := b!"i isGreaterThan? -40;") (v := -7) (by meets) (by meets)
  lit_minus40 (by decide) (.tail _ (.tail _ (.tail _ (.head _)))) (by meets)
example [StdSort] := C15_boolean_round_trip (pwd := []) (s := none) (c := demo) (n := b!"b") (t₁ := b!"b set: false;") (t₂ := b!"b get;")
  (v := true) (by meets) (by meets) (.inr rfl) (by meets) (by meets)
example [StdSort] := C15_isTrue_isFalse (pwd := []) (s := none) (c := demo) (n := b!"b") (t₁ := b!"b isTrue?;") (t₂ := b!"b isFalse?;") (v := true)
  (by meets) (by meets) (by meets) (by meets)
example [StdSort] := C16_characters (pwd := []) (s := none) (c := demo) (n := b!"a::c") (t := b!"a::c isLessThan? 'y';") (v := c!"x") (w := c!"y")
  (by meets) (by meets) (.tail _ (.head _)) (by meets)
example [StdSort] := C16_strings (pwd := []) (s := none) (c := demo) (n := b!"a::s") (t := b!"a::s isLexicographicallyLessThan? \"z\";")
  (v := b!"say \"hi\"") (w := b!"z") (by meets) (by meets) (a := b!"\"z\"") ⟨b!"z", rfl, .plain (by decide) (by decide) .nil, .other (by decide) (by decide) .nil⟩ (.tail _ (.head _)) (by meets)
example := C16_natural_order b!"Integer" (by decide)

end Knuckle.Props
