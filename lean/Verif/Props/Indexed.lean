/-
C103: reading a request stays inside of it, as long as the request is shorter than 2 GiB.
-/
import Verif.Proofs.IndexedStack
import Verif.Proofs.Parser
import Verif.Proofs.Values
import Verif.Proofs.Escape

namespace Knuckle.Props

open Knuckle.Spec Knuckle.Idx

/-- For every request shorter than 2^31 bytes, whatever its bytes are: the parser, with the indices of the C++, finds the parts of the
statement if the request is one (`Spec/Grammar.lean`), and throws "invalid statement" otherwise; nothing else happens, in particular no access
outside of the text, no overflow, no other exception and no endless loop. -/
theorem C103_parser_stays_inside {text : Str} (short : text.length < 2147483648) {stack : Nat} (room : text.length / 4 + 1 ≤ stack) :
    (∃ actor name args, Statement text actor name args ∧ Idx.parse stack text = .ok ⟨actor, name, args⟩) ∨
    ((¬ ∃ actor name args, Statement text actor name args) ∧ Idx.parse stack text = .throws .invalidStatement) := by
  have room' := isStatement_room short ((parseD_le text).1.trans room)
  rcases parse_cases text with ⟨p, hp⟩ | hp
  · exact Or.inl ⟨_, _, _, (parse_iff text p).1 hp, parse_ok short room' hp⟩
  · have hno : ¬ ∃ actor name args, Statement text actor name args := by
      rintro ⟨a, n, l, h⟩
      rw [(parse_iff text ⟨a, n, l⟩).2 h] at hp
      cases hp
    refine Or.inr ⟨hno, parse_invalid room' ?_⟩
    cases h : Knuckle.isStatement text with
    | false => rfl
    | true => exact absurd ((isStatement_iff text).1 h) hno

/-- The same for the tests of a text on its own, as they are made for actors and arguments. -/
theorem C103_tests_stay_inside {text : Str} (short : text.length < 2147483648) :
    (Idx.isType text = .ok true ∧ IsType text ∨ Idx.isType text = .ok false ∧ ¬ IsType text) ∧
    (Idx.isVariable text = .ok true ∧ Variable text ∨ Idx.isVariable text = .ok false ∧ ¬ Variable text) ∧
    (Idx.isIdentifier text = .ok true ∧ Identifier text ∨ Idx.isIdentifier text = .ok false ∧ ¬ Identifier text) ∧
    (Idx.isCharacterValue text = .ok true ∧ CharacterValue text ∨ Idx.isCharacterValue text = .ok false ∧ ¬ CharacterValue text) ∧
    (Idx.isIntegerValue text = .ok true ∧ IntegerValue text ∨ Idx.isIntegerValue text = .ok false ∧ ¬ IntegerValue text) ∧
    (Idx.isFloatValue text = .ok true ∧ FloatValue text ∨ Idx.isFloatValue text = .ok false ∧ ¬ FloatValue text) ∧
    (Idx.isStringValue text = .ok true ∧ StringValue text ∨ Idx.isStringValue text = .ok false ∧ ¬ StringValue text) := by
  have key : ∀ {x : Ix Bool} {b : Bool} {P : Prop}, x = .ok b → (b = true ↔ P) → (x = .ok true ∧ P ∨ x = .ok false ∧ ¬ P) := by
    intro x b P hx hb
    cases b
    · exact Or.inr ⟨hx, fun hP => by simpa using hb.2 hP⟩
    · exact Or.inl ⟨hx, hb.1 rfl⟩
  exact ⟨key (isType_eq short) (isType_iff text), key (isVariable_eq short) (isVariable_iff text), key (isIdentifier_eq short) (isIdentifier_iff text),
    key (isCharacterValue_eq text) (isCharacterValue_iff text), key (isIntegerValue_eq short) (isIntegerValue_iff text),
    key (isFloatValue_eq short) (isFloatValue_iff text), key (isStringValue_eq short) (isStringValue_iff text)⟩

/-- The functions on strings: where one string starts or ends with another; what is left without white space; quotes with backslashes, and
back again. -/
theorem C103_strings_stay_inside {text : Str} (short : text.length < 2147483648) :
    (∀ other : Str, Idx.startsWith text other = .ok true ∧ (∃ r, text = other ++ r) ∨ Idx.startsWith text other = .ok false ∧ ¬ ∃ r, text = other ++ r) ∧
    (∀ other : Str, Idx.endsWith text other = .ok true ∧ (∃ r, text = r ++ other) ∨ Idx.endsWith text other = .ok false ∧ ¬ ∃ r, text = r ++ other) ∧
    Idx.removeSpaces text = .ok (text.filter fun c => ¬ (c = 32 ∨ (9 ≤ c ∧ c ≤ 13))) ∧
    (∃ before inner after, text = before ++ (inner ++ after) ∧ Spaces before ∧ Spaces after ∧
      (∀ c r, inner = c :: r → ¬ Ws c) ∧ (∀ c r, inner = r ++ [c] → ¬ Ws c) ∧ Idx.trim text = .ok inner) ∧
    Idx.escape text c!"\"" = .ok (text.flatMap fun c => if c = c!"\"" then [c!"\\", c!"\""] else [c]) ∧
    (∀ value, text = (value.flatMap fun c => if c = c!"\"" then [c!"\\", c!"\""] else [c]) → Idx.unescape text c!"\"" = .ok value) := by
  have key : ∀ {x : Ix Bool} {b : Bool} {P : Prop}, x = .ok b → (b = true ↔ P) → (x = .ok true ∧ P ∨ x = .ok false ∧ ¬ P) := by
    intro x b P hx hb
    cases b
    · exact Or.inr ⟨hx, fun hP => by simpa using hb.2 hP⟩
    · exact Or.inl ⟨hx, hb.1 rfl⟩
  have hesc : ∀ v : Str, Knuckle.escape c!"\"" v = v.flatMap fun c => if c = c!"\"" then [c!"\\", c!"\""] else [c] := by
    intro v
    induction v with
    | nil => rfl
    | cons c cs ih =>
      rw [escape_cons, List.flatMap_cons, ← ih]
      by_cases h : c = c!"\"" <;> simp [h]
  refine ⟨fun o => key (startsWith_eq short) (startsWith_iff _ _), fun o => key (endsWith_eq short) (endsWith_iff _ _), ?_, ?_, ?_, ?_⟩
  · rw [Idx.removeSpaces_eq short, Knuckle.removeSpaces_eq]
    congr 1
    refine List.filter_congr fun c _ => ?_
    have := isSpace_iff c
    unfold Ws at this
    by_cases h : c = 32 ∨ (9 ≤ c ∧ c ≤ 13)
    · rw [this.2 h]; simp [h]
    · cases hc : isSpace c with
      | true => exact absurd (this.1 hc) h
      | false => simp [h]
  · obtain ⟨w, hw, h⟩ := ltrim_spec text
    obtain ⟨w', hw', h'⟩ := rtrim_spec (Knuckle.ltrim text)
    refine ⟨w, Knuckle.trim text, w', ?_, hw, hw', ?_, ?_, Idx.trim_eq short⟩
    · unfold Knuckle.trim
      rw [← h']; exact h
    · intro c r e
      have hne : Knuckle.trim text ≠ [] := by rw [e]; simp
      have hl := ltrim_noLead text
      rw [h'] at hl
      exact (noLead_append _ _ hne).1 hl c r e
    · intro c r e
      exact rtrim_noTrail (Knuckle.ltrim text) c r e
  · rw [escape_eq short, hesc]
  · intro value hv
    rw [unescape_eq short, hv, ← hesc, unescape_escape]

/-- A request of between 2^31 and 2^32 bytes, whatever its bytes are, makes the parser index outside of it, or overflow. -/
theorem C103_long_requests_are_undefined {text : Str} (long : 2147483648 ≤ text.length) (below : text.length < 4294967296) (stack : Nat) :
    Idx.parse stack text = .ub :=
  parse_long long below

/-! A statement, a text that is no statement, and a text that is too long. -/

example : Idx.parse 100 b!" Vector< Integer > create: a::b; " = .ok ⟨b!"Vector< Integer >", b!"create:", [b!"a::b"]⟩ :=
  parse_ok (by unfold Fits; decide) (isStatement_room (by unfold Fits; decide) ((parseD_le _).1.trans (by decide))) (by decide +kernel)

example : Idx.parse 100 b!"x say: \"a\\\\\" to: 'b' ;" = .ok ⟨b!"x", b!"say:to:", [b!"\"a\\\\\"", b!"'b'"]⟩ :=
  parse_ok (by unfold Fits; decide) (isStatement_room (by unfold Fits; decide) ((parseD_le _).1.trans (by decide))) (by decide +kernel)

example : Idx.parse 100 b!"x say: \"a\\\" ;" = .throws .invalidStatement :=
  parse_invalid (isStatement_room (by unfold Fits; decide) ((parseD_le _).1.trans (by decide))) (by decide +kernel)

example : Idx.parse 5 (List.replicate 3000000000 c!" ") = .ub :=
  C103_long_requests_are_undefined (by rw [List.length_replicate]; decide) (by rw [List.length_replicate]; decide) 5

end Knuckle.Props
