/-
C01–C06, C08: requests and literals.
-/
import Verif.Proofs.Layout
import Verif.Proofs.Sort

namespace Knuckle.Props

open Spec

/-! ### C01 -/

/-- C01: a text is read as a statement with this actor, message name and these arguments iff the documented grammar
derives it with exactly them. -/
theorem C01_parser_is_grammar (text actor name : Str) (args : List Str) :
    parse text = .ok ⟨actor, name, args⟩ ↔ Statement text actor name args :=
  parse_iff text ⟨actor, name, args⟩

/-- C01: every text that the grammar does not derive is answered with the syntax error and changes nothing, in every
context and from every session. -/
theorem C01_other_texts_are_syntax_errors [StdSort] (pwd : Str) (c : Ctx) (s : Option Session) (text : Str)
    (h : ¬ ∃ a n l, Statement text a n l) :
    ∃ c', execute pwd c s text = .done (c', s, b!"SyntaxError: invalid statement.") ∧ SameData c c' :=
  ⟨_, execute_not_statement pwd c s text h, sameData_record _ _ _⟩

/-- C01: the execution of a derivable text is determined by the derivation (so in particular it is not answered by the
parser's error unless the executed message says so). -/
theorem C01_execution_follows_derivation [StdSort] (pwd : Str) (c : Ctx) (s : Option Session)
    (text text' actor name : Str) (args : List Str) (h : Statement text actor name args)
    (h' : Statement text' actor name args) : SameEffect (execute pwd c s text) (execute pwd c s text') := by
  rw [execute_statement _ _ _ _ _ _ _ h, execute_statement _ _ _ _ _ _ _ h']
  exact finish_sameEffect _ _ _

/-- The hypotheses are satisfiable by a text with all features: container type, white space, string with an escaped
quote. -/
example : ∃ text, Statement text b!"a::v" b!"replaceAll:with:" [b!"\"x \\\" ;\"", b!"-1.5e3"] ∧
    text = b!" a::v  replaceAll:\"x \\\" ;\" with: -1.5e3 ; " := by
  refine ⟨_, (C01_parser_is_grammar _ _ _ _).1 ?_, rfl⟩
  decide +kernel

example : ¬ ∃ a n l, Statement b!"i add: ;" a n l := by
  rintro ⟨a, n, l, h⟩
  have := (C01_parser_is_grammar _ _ _ _).2 h
  rw [show parse b!"i add: ;" = .err .invalidStatement by decide +kernel] at this
  cases this

/-! ### C02 -/

/-- C02: parsing any byte string ends in a statement or in the syntax error; never in undefined behaviour (reading outside
of the text) and never in another exception. -/
theorem C02_parsing_is_safe (text : Str) :
    (∃ p, parse text = .ok p) ∨ parse text = .err .invalidStatement := parse_cases text

/-! ### C03 -/

/-- C03: two readings of one text agree. -/
theorem C03_unambiguous (text a a' n n' : Str) (l l' : List Str)
    (h : Statement text a n l) (h' : Statement text a' n' l') : a = a' ∧ n = n' ∧ l = l' := by
  have e := (parse_complete _ _ _ _ h).symm.trans (parse_complete _ _ _ _ h')
  injection e with e
  injection e with e1 e2 e3
  exact ⟨e1, e2, e3⟩

/-- A text with spaces in three places where a reader could go wrong has a reading. -/
example : ∃ a n l, Statement b!"Vector< Integer > create: v ;" a n l :=
  ⟨b!"Vector< Integer >", b!"create:", [b!"v"], (C01_parser_is_grammar _ _ _ _).1 (by decide +kernel)⟩

/-! ### C04 -/

/-- C04: two texts with the same message and arguments, whose actors differ at most in white space, have the same effect
and the same reply in every context. -/
theorem C04_white_space_irrelevant [StdSort] (pwd : Str) (c : Ctx) (s : Option Session)
    (text text' actor actor' name : Str) (args : List Str) (h : Statement text actor name args)
    (h' : Statement text' actor' name args) (ha : SameButSpaces actor actor') :
    SameEffect (execute pwd c s text) (execute pwd c s text') := by
  have hA : Actor actor := by obtain ⟨_, _, _, _, _, _, _, _, h, _⟩ := h; exact h
  have hA' : Actor actor' := by obtain ⟨_, _, _, _, _, _, _, _, h, _⟩ := h'; exact h
  rw [execute_statement _ _ _ _ _ _ _ h, execute_statement _ _ _ _ _ _ _ h',
    executeParsed_sameButSpaces pwd c s actor actor' name args hA hA' ((sameButSpaces_iff _ _).1 ha)]
  exact finish_sameEffect _ _ _

/-- C04, spelled out for keyword messages: the same tokens and arguments, laid out with any two choices of white space
(any runs before the actor, behind each token, around the semicolon; any non-empty runs behind the actor and between the
parts; and any white space within a container type), have the same effect. -/
theorem C04_keyword_layouts [StdSort] (pwd : Str) (c : Ctx) (s : Option Session)
    (ps : List (Str × Str)) (ws ws' : List (Str × Str)) (a a' u₁ u₂ u₃ u₄ v₁ v₂ v₃ v₄ : Str)
    (ha : Actor a) (ha' : Actor a') (haa : SameButSpaces a a')
    (hps : ps ≠ []) (hp : ∀ p ∈ ps, Token p.1 ∧ Argument p.2)
    (hl : ws.length = ps.length) (hl' : ws'.length = ps.length) (hw : GoodSpacing ws) (hw' : GoodSpacing ws')
    (hu : GoodOuter u₁ u₂ u₃ u₄) (hv : GoodOuter v₁ v₂ v₃ v₄) :
    SameEffect (execute pwd c s (layoutStatement u₁ a u₂ (layoutMessage ps ws) u₃ u₄))
      (execute pwd c s (layoutStatement v₁ a' v₂ (layoutMessage ps ws') v₃ v₄)) :=
  C04_white_space_irrelevant pwd c s _ _ a a' (ps.map (·.1)).flatten (ps.map (·.2))
    (layout_statement _ _ _ _ _ _ _ _ hu ha (.inr (layout_keyword ps ws hl hps hp hw)))
    (layout_statement _ _ _ _ _ _ _ _ hv ha' (.inr (layout_keyword ps ws' hl' hps hp hw'))) haa

/-- C04, spelled out for unary messages. -/
theorem C04_unary_layouts [StdSort] (pwd : Str) (c : Ctx) (s : Option Session)
    (msg a a' u₁ u₂ u₃ u₄ v₁ v₂ v₃ v₄ : Str) (ha : Actor a) (ha' : Actor a') (haa : SameButSpaces a a')
    (hm : UnaryMessage msg) (hu : GoodOuter u₁ u₂ u₃ u₄) (hv : GoodOuter v₁ v₂ v₃ v₄) :
    SameEffect (execute pwd c s (layoutStatement u₁ a u₂ msg u₃ u₄))
      (execute pwd c s (layoutStatement v₁ a' v₂ msg v₃ v₄)) :=
  C04_white_space_irrelevant pwd c s _ _ a a' msg []
    (layout_statement _ _ _ _ _ _ _ _ hu ha (.inl ⟨hm, rfl, rfl⟩))
    (layout_statement _ _ _ _ _ _ _ _ hv ha' (.inl ⟨hm, rfl, rfl⟩)) haa

/-- A concrete pair of layouts. -/
example : layoutStatement [] b!"i" b!" " (layoutMessage [(b!"add:", b!"1")] [(b!" ", b!" ")]) [] [] = b!"i add: 1;" ∧
    layoutStatement b!"  " b!"i" b!" \t" (layoutMessage [(b!"add:", b!"1")] [([], b!" ")]) b!" " b!" " = b!"  i \tadd:1 ; " ∧
    GoodOuter b!"  " b!" \t" b!" " b!" " ∧ GoodSpacing [([], b!" ")] ∧
    SameButSpaces b!"Set<Float>" b!"Set<  Float >" := by
  refine ⟨by decide, by decide, ?_, ?_, ?_⟩
  · unfold GoodOuter Spaces Ws; decide
  · unfold GoodSpacing Spaces Ws; decide
  · unfold SameButSpaces; decide

/-! ### C05 -/

/-- C05, integers: accepted iff an optional sign followed by one or more digits. -/
theorem C05_integer_literals (s : Str) :
    isIntegerValue s = true ↔
      ∃ sg ds, s = sg ++ ds ∧ (sg = [] ∨ sg = b!"+" ∨ sg = b!"-") ∧ ds ≠ [] ∧ ∀ c ∈ ds, c!"0" ≤ c ∧ c ≤ c!"9" :=
  isIntegerValue_iff s

/-- C05, floats: accepted iff an optional sign, digits with at most one point and at least one digit, and an optional `e`
followed by an integer literal. -/
theorem C05_float_literals (s : Str) :
    isFloatValue s = true ↔
      ∃ sg m e, s = sg ++ (m ++ e) ∧ (sg = [] ∨ sg = b!"+" ∨ sg = b!"-") ∧
        ((∀ c ∈ m, (c!"0" ≤ c ∧ c ≤ c!"9") ∨ c = c!".") ∧ m.count c!"." ≤ 1 ∧ ∃ c ∈ m, c!"0" ≤ c ∧ c ≤ c!"9") ∧
        (e = [] ∨ ∃ x, e = c!"e" :: x ∧ IntegerValue x) := by
  rw [isFloatValue_iff]
  unfold FloatValue
  constructor
  · rintro ⟨sg, m, e, h, hs, hm, he⟩
    refine ⟨sg, m, e, h, hs, ?_, he⟩
    rcases hm with ⟨hne, hd⟩ | ⟨a, b, rfl, ha, hb, hab⟩
    · refine ⟨fun c hc => .inl (hd c hc), by rw [digits_count_dot m hd]; omega, ?_⟩
      cases m with
      | nil => exact absurd rfl hne
      | cons c m => exact ⟨c, by simp, hd c (by simp)⟩
    · refine ⟨?_, ?_, ?_⟩
      · intro c hc
        simp only [List.mem_append, List.mem_cons] at hc
        rcases hc with hc | hc | hc
        · exact .inl (ha c hc)
        · exact .inr hc
        · exact .inl (hb c hc)
      · have := digits_count_dot a ha; have := digits_count_dot b hb
        simp [List.count_cons]; omega
      · rcases hab with hab | hab
        · cases a with
          | nil => exact absurd rfl hab
          | cons c m => exact ⟨c, by simp, ha c (by simp)⟩
        · cases b with
          | nil => exact absurd rfl hab
          | cons c m => exact ⟨c, by simp, hb c (by simp)⟩
  · rintro ⟨sg, m, e, h, hs, ⟨hm, hc, c, hcm, hcd⟩, he⟩
    refine ⟨sg, m, e, h, hs, ?_, he⟩
    by_cases hdot : c!"." ∈ m
    · obtain ⟨a, b, hab⟩ := List.append_of_mem hdot
      subst hab
      have hz : a.count c!"." = 0 ∧ b.count c!"." = 0 := by
        simp [List.count_cons] at hc; omega
      rw [List.count_eq_zero, List.count_eq_zero] at hz
      have ha : Digits a := fun x hx => (hm x (by simp [hx])).resolve_right (fun e => hz.1 (e ▸ hx))
      have hb : Digits b := fun x hx => (hm x (by simp [hx])).resolve_right (fun e => hz.2 (e ▸ hx))
      refine .inr ⟨a, b, rfl, ha, hb, ?_⟩
      simp only [List.mem_append, List.mem_cons] at hcm
      rcases hcm with hcm | hcm | hcm
      · left; rintro rfl; simp at hcm
      · subst hcm; exact absurd hcd (by decide)
      · right; rintro rfl; simp at hcm
    · refine .inl ⟨?_, fun x hx => (hm x hx).resolve_right (fun e => hdot (e ▸ hx))⟩
      rintro rfl; simp at hcm

/-! ### C06 -/

/-- C06: a text is a string literal iff it is a quote, a body in which every quote has an odd number of backslashes
directly before it and which does not end in an odd number of backslashes, and a quote. -/
theorem C06_string_literals (s : Str) :
    isStringValue s = true ↔ ∃ b, s = c!"\"" :: (b ++ [c!"\""]) ∧
      (∀ p q, b = p ++ c!"\"" :: q → (p.reverse.takeWhile (· == c!"\\")).length % 2 = 1) ∧
      (b.reverse.takeWhile (· == c!"\\")).length % 2 = 0 := by
  have key : ∀ b : Str, BodyParity [] b ↔
      (∀ p q, b = p ++ c!"\"" :: q → (p.reverse.takeWhile (· == c!"\\")).length % 2 = 1) ∧
      (b.reverse.takeWhile (· == c!"\\")).length % 2 = 0 := by
    intro b
    unfold BodyParity trail
    simp only [List.nil_append]
    refine and_congr_left fun _ => ?_
    constructor
    · intro h p q e
      have := h p.length (by rw [e]; simp)
      rw [e] at this; simpa using this
    · intro h i hi
      refine h (b.take i) (b.drop (i + 1)) ?_
      obtain ⟨hlt, he⟩ := List.getElem?_eq_some_iff.1 hi
      rw [← he]; simp
  constructor
  · intro h
    obtain ⟨b, rfl⟩ := isStringValue_shape s h
    exact ⟨b, rfl, (key b).1 ((isStringValue_quote b).1 h)⟩
  · rintro ⟨b, rfl, h⟩
    exact (isStringValue_quote b).2 ((key b).2 h)

/-- C06: the same as a regular expression: the body is made of bytes other than quote and backslash, and of pairs of a
backslash and any byte. -/
theorem C06_string_literals_regular (s : Str) : isStringValue s = true ↔ StringValue s := isStringValue_iff s

/-- C06: no proper prefix of a string literal is a string literal: the literal ends at the first unescaped quote. -/
theorem C06_no_proper_prefix (s t : Str) (hs : isStringValue s = true) (hst : isStringValue (s ++ t) = true) : t = [] :=
  stringValue_prefix_free s t ((isStringValue_iff _).1 hs) ((isStringValue_iff _).1 hst)

example : isStringValue b!"\"a\\\"b\"" = true ∧ isStringValue b!"\"a\"b\"" = false ∧ isStringValue b!"\"a\\\"" = false := by
  decide

/-! ### C08 -/

/-- C08: the actor of an accepted statement is exactly one of a type, the context, a variable, the connection. -/
theorem C08_one_receiver (text actor name : Str) (args : List Str) (h : Statement text actor name args) :
    (IsType actor ∧ actor ≠ b!"Context" ∧ ¬ Variable actor ∧ actor ≠ b!"Connection") ∨
    (¬ IsType actor ∧ actor = b!"Context" ∧ ¬ Variable actor ∧ actor ≠ b!"Connection") ∨
    (¬ IsType actor ∧ actor ≠ b!"Context" ∧ Variable actor ∧ actor ≠ b!"Connection") ∨
    (¬ IsType actor ∧ actor ≠ b!"Context" ∧ ¬ Variable actor ∧ actor = b!"Connection") := by
  have hA : Actor actor := by obtain ⟨_, _, _, _, _, _, _, _, h, _⟩ := h; exact h
  simp only [← isType_iff, ← isVariable_iff]
  rcases hA with rfl | rfl | h | h
  · right; right; right; decide
  · right; left; decide
  · left
    have h := (isType_iff actor).2 h
    refine ⟨h, ?_, ?_, ?_⟩
    · rintro rfl; revert h; decide
    · rw [isType_not_variable actor h]; decide
    · rintro rfl; revert h; decide
  · right; right; left
    have h := (isVariable_iff actor).2 h
    refine ⟨?_, ?_, h, ?_⟩
    · intro ht; rw [isType_not_variable actor ht] at h; cases h
    · rintro rfl; revert h; decide
    · rintro rfl; revert h; decide

end Knuckle.Props
