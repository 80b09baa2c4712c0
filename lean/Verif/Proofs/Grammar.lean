/-
The recognizers of `src/grammar.cpp` agree with the documented grammar.
-/
import Verif.Proofs.Literals

namespace Knuckle

open Spec

/-! ### Types -/

theorem objectType_noLead (t : Str) (h : ObjectType t) : NoLead t := by
  intro c cs e
  subst e
  simp only [ObjectType, List.mem_cons, List.not_mem_nil, or_false] at h
  unfold Ws
  rcases h with h | h | h | h | h <;> (injection h with h _; subst h; decide)

theorem objectType_noTrail (t : Str) (h : ObjectType t) : NoTrail t := by
  intro c cs e
  have e' := congrArg List.getLast? e
  rw [List.getLast?_append] at e'
  simp only [ObjectType, List.mem_cons, List.not_mem_nil, or_false] at h
  unfold Ws
  rcases h with h | h | h | h | h <;> (subst h; simp at e'; subst e'; decide)

theorem objectType_ne_nil (t : Str) (h : ObjectType t) : t ≠ [] := by
  rintro rfl
  simp [ObjectType] at h

theorem objectType_not_mem (t : Str) (h : ObjectType t) (c : Byte) (hc : ¬ Letter c) : c ∉ t := by
  intro hm
  apply hc
  simp only [ObjectType, List.mem_cons, List.not_mem_nil, or_false] at h
  have key : ∀ u : Str, (u.all isAlpha) = true → c ∈ u → Letter c := by
    intro u hu hm
    rw [List.all_eq_true] at hu
    exact (isAlpha_iff c).1 (hu c hm)
  rcases h with rfl | rfl | rfl | rfl | rfl <;> exact key _ (by decide) hm

theorem prefix_suffix_split (p s r r' : Str) (z : Byte) (h1 : s = p ++ r) (h2 : s = r' ++ [z]) (hp : z ∉ p) :
    ∃ m, s = p ++ (m ++ [z]) := by
  rcases List.eq_nil_or_concat r with rfl | ⟨m, y, rfl⟩
  · exfalso; apply hp; rw [List.append_nil] at h1; rw [← h1, h2]; simp
  · refine ⟨m, ?_⟩
    have e : (p ++ m) ++ [y] = r' ++ [z] := by rw [← h2, h1]; simp
    have := (List.append_inj' e rfl).2
    simp at this
    rw [h1, this]; simp

theorem substr_mid (p m : Str) (z : Byte) :
    substr (p ++ (m ++ [z])) p.length ((p ++ (m ++ [z])).length - (p.length + 1)) = m := by
  unfold substr
  have : (p ++ (m ++ [z])).length - (p.length + 1) = m.length := by simp; omega
  rw [this, List.drop_left, List.take_left]

/-- The text between the angle brackets of a vector or set type. -/
theorem bracket_iff (p : Str) (n : Nat) (hn : n = p.length) (hz : c!">" ∉ p) (s : Str) :
    (if !startsWith s p || !endsWith s b!">" then false else isObjectType (trim (substr s n (s.length - (n + 1))))) = true
    ↔ ∃ w t w', s = p ++ (w ++ (t ++ (w' ++ b!">"))) ∧ Spaces w ∧ ObjectType t ∧ Spaces w' := by
  subst hn
  constructor
  · intro h
    split at h
    · cases h
    · rename_i hh
      simp at hh
      obtain ⟨r, h1⟩ := (startsWith_iff _ _).1 hh.1
      obtain ⟨r', h2⟩ := (endsWith_iff _ _).1 hh.2
      obtain ⟨m, rfl⟩ := prefix_suffix_split p s r r' _ h1 h2 hz
      rw [substr_mid, isObjectType_iff] at h
      obtain ⟨w, w', hw, hw', e⟩ := trim_spec m
      refine ⟨w, trim m, w', ?_, hw, h, hw'⟩
      conv => lhs; rw [e]
      simp
  · rintro ⟨w, t, w', rfl, hw, ht, hw'⟩
    have e : p ++ (w ++ (t ++ (w' ++ b!">"))) = p ++ ((w ++ (t ++ w')) ++ b!">") := by simp
    rw [e]
    have h1 : startsWith (p ++ ((w ++ (t ++ w')) ++ b!">")) p = true := (startsWith_iff _ _).2 ⟨_, rfl⟩
    have h2 : endsWith (p ++ ((w ++ (t ++ w')) ++ b!">")) b!">" = true :=
      (endsWith_iff _ _).2 ⟨p ++ (w ++ (t ++ w')), by simp⟩
    simp only [h1, h2, Bool.not_true, Bool.or_self, Bool.false_eq_true, if_false]
    rw [substr_mid, trim_eq w t w' hw hw' (objectType_noLead t ht) (objectType_noTrail t ht) (objectType_ne_nil t ht)]
    exact (isObjectType_iff t).2 ht

theorem isVectorType_iff (s : Str) : isVectorType s = true ↔ VectorType s :=
  bracket_iff b!"Vector<" 7 rfl (by decide) s

theorem isSetType_iff (s : Str) : isSetType s = true ↔ SetType s :=
  bracket_iff b!"Set<" 4 rfl (by decide) s

theorem dictLoop_comma (a b : Str) (h : c!"," ∉ a) :
    ∀ pre, dictLoop pre (a ++ c!"," :: b) = (isObjectType (trim (pre ++ a)) && isObjectType (trim b)) := by
  induction a with
  | nil => intro pre; simp [dictLoop]
  | cons c cs ih =>
    intro pre
    have hc : c ≠ c!"," := fun e => h (by simp [e])
    rw [List.cons_append]
    simp only [dictLoop, beq_iff_eq, hc, if_false]
    rw [ih (fun hm => h (by simp [hm]))]
    simp

theorem dictLoop_some (s : Str) : ∀ pre, dictLoop pre s = true → ∃ a b, s = a ++ c!"," :: b ∧ c!"," ∉ a := by
  induction s with
  | nil => intro pre h; simp [dictLoop] at h
  | cons c cs ih =>
    intro pre h
    by_cases hc : c = c!","
    · exact ⟨[], cs, by simp [hc], by simp⟩
    · simp only [dictLoop, beq_iff_eq, hc, if_false] at h
      obtain ⟨a, b, rfl, hn⟩ := ih _ h
      exact ⟨c :: a, b, rfl, by simp [hn]; exact fun e => hc e.symm⟩

theorem spaces_not_mem (w : Str) (hw : Spaces w) (c : Byte) (hc : ¬ Ws c) : c ∉ w := fun hm => hc (hw c hm)

theorem isDictionaryType_iff (s : Str) : isDictionaryType s = true ↔ DictionaryType s := by
  unfold isDictionaryType DictionaryType
  constructor
  · intro h
    split at h
    · cases h
    · rename_i hh
      simp at hh
      obtain ⟨r, h1⟩ := (startsWith_iff _ _).1 hh.1
      obtain ⟨r', h2⟩ := (endsWith_iff _ _).1 hh.2
      obtain ⟨m, rfl⟩ := prefix_suffix_split b!"Dictionary<" s r r' _ h1 h2 (by decide)
      rw [show (11 : Nat) = (b!"Dictionary<").length from rfl] at h
      rw [show (12 : Nat) = (b!"Dictionary<").length + 1 from rfl] at h
      rw [substr_mid] at h
      obtain ⟨a, b, rfl, hn⟩ := dictLoop_some _ _ h
      rw [dictLoop_comma a b hn] at h
      simp only [List.nil_append, Bool.and_eq_true, isObjectType_iff] at h
      obtain ⟨w, w', hw, hw', e⟩ := trim_spec a
      obtain ⟨v, v', hv, hv', e'⟩ := trim_spec b
      refine ⟨w, trim a, w', v, trim b, v', ?_, hw, h.1, hw', hv, h.2, hv'⟩
      conv => lhs; rw [e, e']
      simp
  · rintro ⟨w, k, w', v, t, v', rfl, hw, hk, hw', hv, ht, hv'⟩
    have e : b!"Dictionary<" ++ (w ++ (k ++ (w' ++ (b!"," ++ (v ++ (t ++ (v' ++ b!">"))))))) =
        b!"Dictionary<" ++ (((w ++ (k ++ w')) ++ c!"," :: (v ++ (t ++ v'))) ++ b!">") := by simp
    rw [e]
    have h1 : startsWith (b!"Dictionary<" ++ (((w ++ (k ++ w')) ++ c!"," :: (v ++ (t ++ v'))) ++ b!">")) b!"Dictionary<" = true :=
      (startsWith_iff _ _).2 ⟨_, rfl⟩
    have h2 : endsWith (b!"Dictionary<" ++ (((w ++ (k ++ w')) ++ c!"," :: (v ++ (t ++ v'))) ++ b!">")) b!">" = true :=
      (endsWith_iff _ _).2 ⟨b!"Dictionary<" ++ ((w ++ (k ++ w')) ++ c!"," :: (v ++ (t ++ v'))), by simp⟩
    rw [h1, h2]
    simp only [Bool.not_true, Bool.or_self, Bool.false_eq_true, if_false]
    rw [show (11 : Nat) = (b!"Dictionary<").length from rfl]
    rw [show (12 : Nat) = (b!"Dictionary<").length + 1 from rfl]
    rw [substr_mid, dictLoop_comma]
    · rw [List.nil_append, trim_eq w k w' hw hw' (objectType_noLead k hk) (objectType_noTrail k hk) (objectType_ne_nil k hk),
        trim_eq v t v' hv hv' (objectType_noLead t ht) (objectType_noTrail t ht) (objectType_ne_nil t ht),
        (isObjectType_iff k).2 hk, (isObjectType_iff t).2 ht]
      rfl
    · simp only [List.mem_append, not_or]
      have hws : ¬ Ws c!"," := by unfold Ws; decide
      exact ⟨spaces_not_mem w hw _ hws, objectType_not_mem k hk _ (by unfold Letter; decide), spaces_not_mem w' hw' _ hws⟩

theorem isContainerType_iff (s : Str) : isContainerType s = true ↔ ContainerType s := by
  simp [isContainerType, ContainerType, isVectorType_iff, isSetType_iff, isDictionaryType_iff, or_assoc]

theorem isType_iff (s : Str) : isType s = true ↔ IsType s := by
  simp [isType, IsType, isObjectType_iff, isContainerType_iff]

/-! ### Names -/

theorem isReservedWord_iff (s : Str) : isReservedWord s = true ↔ ReservedWord s := by
  simp [isReservedWord, ReservedWord, reservedWords]

theorem isIdentifier_iff (s : Str) : isIdentifier s = true ↔ Identifier s := by
  cases s with
  | nil =>
    simp only [isIdentifier, Bool.false_eq_true, false_iff]
    rintro ⟨⟨c, r, h, -⟩, -⟩
    cases h
  | cons c cs =>
    have hany : cs.any (fun d => !isAlphanumeric d && d != c!"_") = false ↔
        ∀ d ∈ cs, Letter d ∨ Digit d ∨ d = c!"_" := by
      rw [List.any_eq_false]
      constructor
      · intro H d hd
        have := H d hd
        by_cases h : isAlphanumeric d = true
        · rcases (isAlphanumeric_iff d).1 h with h | h
          · exact .inl h
          · exact .inr (.inl h)
        · simp [h] at this; exact .inr (.inr this)
      · intro H d hd
        rcases H d hd with h | h | h
        · simp [(isAlphanumeric_iff d).2 (.inl h)]
        · simp [(isAlphanumeric_iff d).2 (.inr h)]
        · simp [h]
    constructor
    · intro h
      simp only [isIdentifier] at h
      split at h
      · cases h
      · rename_i h1
        split at h
        · cases h
        · rename_i h2
          refine ⟨⟨c, cs, rfl, (isAlpha_iff c).1 (by simpa using h1), hany.1 (by simpa using h2)⟩, ?_⟩
          rw [← isReservedWord_iff]; simpa using h
    · rintro ⟨⟨c', r, h, hc, hr⟩, hn⟩
      injection h with h1 h2
      subst h1 h2
      rw [← isReservedWord_iff] at hn
      simp only [isIdentifier, (isAlpha_iff c).2 hc, hany.2 hr]
      simpa using hn

/-- The bytes words are made of. -/
def WordChar (c : Byte) : Prop :=
  Letter c ∨ Digit c ∨ c = c!"_" ∨ c = c!":" ∨ c = c!"+" ∨ c = c!"-" ∨ c = c!"."

instance (c : Byte) : Decidable (WordChar c) := by unfold WordChar Letter Digit; infer_instance

theorem wordChar_not_ws (c : Byte) (h : WordChar c) : ¬ Ws c := by
  unfold WordChar Letter Digit at h; unfold Ws
  grind

theorem identifier_ne_nil (s : Str) (h : Identifier s) : s ≠ [] := by
  obtain ⟨⟨c, r, rfl, -⟩, -⟩ := h; simp

theorem identifier_chars (s : Str) (h : Identifier s) : ∀ c ∈ s, Letter c ∨ Digit c ∨ c = c!"_" := by
  obtain ⟨⟨c, r, rfl, hc, hr⟩, -⟩ := h
  intro d hd
  rcases List.mem_cons.1 hd with rfl | hd
  · exact .inl hc
  · exact hr d hd

theorem identifier_head (s : Str) (h : Identifier s) : ∃ c r, s = c :: r ∧ Letter c := by
  obtain ⟨⟨c, r, rfl, hc, hr⟩, -⟩ := h
  exact ⟨c, r, rfl, hc⟩

theorem identifier_not_mem (s : Str) (h : Identifier s) (c : Byte) (hc : ¬ (Letter c ∨ Digit c ∨ c = c!"_")) : c ∉ s :=
  fun hm => hc (identifier_chars s h c hm)

theorem variableLoop_none (s : Str) (h : c!":" ∉ s) : ∀ pre, variableLoop pre s = isIdentifier (pre ++ s) := by
  induction s with
  | nil => intro pre; simp [variableLoop]
  | cons c cs ih =>
    intro pre
    cases cs with
    | nil => simp [variableLoop]
    | cons d ds =>
      have hc : c ≠ c!":" := fun e => h (by simp [e])
      have : (c == c!":" && d == c!":") = false := by simp [hc]
      simp only [variableLoop, this, Bool.false_eq_true, if_false]
      rw [ih (fun hm => h (by simp [hm]))]
      simp

theorem variableLoop_some (n i : Str) (h : c!":" ∉ n) :
    ∀ pre, variableLoop pre (n ++ (b!"::" ++ i)) = (isIdentifier (pre ++ n) && isIdentifier i) := by
  induction n with
  | nil => intro pre; simp [variableLoop, isNamespace]
  | cons c cs ih =>
    intro pre
    have hc : c ≠ c!":" := fun e => h (by simp [e])
    have ih := ih (fun hm => h (by simp [hm])) (pre ++ [c])
    cases cs with
    | nil =>
      simp only [List.cons_append, List.nil_append] at ih ⊢
      have : (c == c!":" && c!":" == c!":") = false := by simp [hc]
      rw [variableLoop]
      simp only [this, Bool.false_eq_true, if_false]
      rw [ih]; simp
    | cons d ds =>
      simp only [List.cons_append] at ih ⊢
      have : (c == c!":" && d == c!":") = false := by simp [hc]
      rw [variableLoop]
      simp only [this, Bool.false_eq_true, if_false]
      rw [ih]; simp

theorem variableLoop_sound (s : Str) : ∀ pre, variableLoop pre s = true → Variable (pre ++ s) := by
  induction s with
  | nil => intro pre h; simp [variableLoop] at h; exact .inl ((isIdentifier_iff _).1 (by simpa using h))
  | cons c cs ih =>
    intro pre h
    cases cs with
    | nil => simp [variableLoop] at h; exact .inl ((isIdentifier_iff _).1 h)
    | cons d ds =>
      rw [variableLoop] at h
      split at h
      · rename_i hcd
        simp at hcd
        simp [isNamespace] at h
        obtain ⟨rfl, rfl⟩ := hcd
        exact .inr ⟨pre, ds, by simp, (isIdentifier_iff _).1 h.1, (isIdentifier_iff _).1 h.2⟩
      · have := ih _ h
        simpa using this

theorem isVariable_iff (s : Str) : isVariable s = true ↔ Variable s := by
  have hcolon : ¬ (Letter c!":" ∨ Digit c!":" ∨ c!":" = c!"_") := by unfold Letter Digit; decide
  unfold isVariable
  constructor
  · intro h
    split at h
    · cases h
    · exact variableLoop_sound s [] h
  · intro h
    have hne : s.length ≠ 0 := by
      rcases h with h | ⟨n, i, rfl, hn, -⟩
      · simpa using identifier_ne_nil s h
      · simp
    simp only [beq_iff_eq, hne, if_false]
    rcases h with h | ⟨n, i, rfl, hn, hi⟩
    · rw [variableLoop_none s (identifier_not_mem s h _ hcolon)]
      exact (isIdentifier_iff _).2 h
    · rw [variableLoop_some n i (identifier_not_mem n hn _ hcolon)]
      simp [(isIdentifier_iff _).2 hn, (isIdentifier_iff _).2 hi]

theorem isActor_iff (s : Str) : isActor s = true ↔ Actor s := by
  simp [isActor, Actor, isConnection, isContext, isType_iff, isVariable_iff, or_assoc]

/-! ### Messages -/

theorem getD_last (i : Str) (z : Byte) : (i ++ [z]).getD ((i ++ [z]).length - 1) 0 = z := by
  simp [List.getD]

theorem take_last (i : Str) (z : Byte) : (i ++ [z]).take ((i ++ [z]).length - 1) = i := by simp

theorem isUnaryMessage_iff (s : Str) : isUnaryMessage s = true ↔ UnaryMessage s := by
  unfold isUnaryMessage UnaryMessage
  rcases List.eq_nil_or_concat s with rfl | ⟨i, z, rfl⟩
  · simp only [List.length_nil]
    constructor
    · intro h; simp at h
    · rintro (h | ⟨i, h, -⟩)
      · exact absurd rfl (identifier_ne_nil [] h)
      · simp at h
  · rw [List.concat_eq_append, getD_last, take_last]
    simp only [Bool.and_eq_true, decide_eq_true_eq, Bool.or_eq_true, isIdentifier_iff, beq_iff_eq]
    constructor
    · rintro ⟨-, h | ⟨rfl, h⟩⟩
      · exact .inl h
      · exact .inr ⟨i, rfl, h⟩
    · rintro (h | ⟨i', e, h⟩)
      · exact ⟨by simp, .inl h⟩
      · have := List.append_inj' e rfl
        simp at this
        refine ⟨by simp, .inr ⟨this.2, this.1 ▸ h⟩⟩

theorem isKeywordMessageToken_iff (s : Str) : isKeywordMessageToken s = true ↔ Token s := by
  unfold isKeywordMessageToken Token
  rcases List.eq_nil_or_concat s with rfl | ⟨i, z, rfl⟩
  · simp only [List.length_nil]
    constructor
    · intro h; simp at h
    · rintro ⟨i, hi, h | h⟩ <;> simp at h
  · rw [List.concat_eq_append, getD_last, take_last]
    simp only [Bool.and_eq_true, decide_eq_true_eq, Bool.or_eq_true, isIdentifier_iff, beq_iff_eq]
    constructor
    · rintro ⟨⟨-, h⟩, hi⟩
      refine ⟨i, hi, ?_⟩
      rcases h with rfl | rfl
      · exact .inl rfl
      · exact .inr rfl
    · rintro ⟨i', hi, h⟩
      rcases h with h | h
      · have := List.append_inj' h rfl
        simp at this
        exact ⟨⟨by simp, .inl this.2⟩, this.1 ▸ hi⟩
      · have := List.append_inj' h rfl
        simp at this
        exact ⟨⟨by simp, .inr this.2⟩, this.1 ▸ hi⟩

theorem isKeywordMessageArgument_iff (s : Str) : isKeywordMessageArgument s = true ↔ Argument s := by
  simp [isKeywordMessageArgument, Argument, isObjectValue_iff, isNamespace, isIdentifier_iff, isVariable_iff, or_assoc]

/-! ### Arguments: their shape -/

theorem digit_word (c : Byte) (h : Digit c) : WordChar c := .inr (.inl h)

theorem ident_word (s : Str) (h : Identifier s) : ∀ c ∈ s, WordChar c := by
  intro c hc
  rcases identifier_chars s h c hc with h | h | h
  · exact .inl h
  · exact .inr (.inl h)
  · exact .inr (.inr (.inl h))

theorem sign_word (s : Str) (h : Sign s) : ∀ c ∈ s, WordChar c := by
  rcases h with rfl | rfl | rfl
  · simp
  · decide
  · decide

theorem integer_word (s : Str) (h : IntegerValue s) : (∀ c ∈ s, WordChar c) ∧ s ≠ [] := by
  obtain ⟨sg, ds, rfl, hs, hne, hd⟩ := h
  refine ⟨fun c hc => ?_, by simp [hne]⟩
  rcases List.mem_append.1 hc with h | h
  · exact sign_word sg hs c h
  · exact digit_word c (hd c h)

theorem float_word (s : Str) (h : FloatValue s) : (∀ c ∈ s, WordChar c) ∧ s ≠ [] := by
  obtain ⟨sg, m, e, rfl, hs, hm, he⟩ := h
  obtain ⟨h1, -, h3⟩ := (mantissa_iff m).1 hm
  have hm_ne : m ≠ [] := by rintro rfl; simp at h3
  refine ⟨fun c hc => ?_, by simp [hm_ne]⟩
  rcases List.mem_append.1 hc with h | h
  · exact sign_word sg hs c h
  · rcases List.mem_append.1 h with h | h
    · rcases h1 c h with h | rfl
      · exact digit_word c h
      · decide
    · rcases he with rfl | ⟨x, rfl, hx⟩
      · cases h
      · rcases List.mem_cons.1 h with rfl | h
        · decide
        · exact (integer_word x hx).1 c h

theorem variable_word (s : Str) (h : Variable s) : (∀ c ∈ s, WordChar c) ∧ s ≠ [] := by
  rcases h with h | ⟨n, i, rfl, hn, hi⟩
  · exact ⟨ident_word s h, identifier_ne_nil s h⟩
  · refine ⟨fun c hc => ?_, by simp⟩
    rcases List.mem_append.1 hc with h | h
    · exact ident_word n hn c h
    · rcases List.mem_append.1 h with h | h
      · simp at h; subst h; decide
      · exact ident_word i hi c h

/-- An argument is a word, a character or a string. -/
theorem argument_cases (s : Str) (h : Argument s) :
    ((∀ c ∈ s, WordChar c) ∧ s ≠ []) ∨ CharacterValue s ∨ StringValue s := by
  rcases h with (h | h | h | h | h) | h | h
  · left
    rcases h with rfl | rfl
    · exact ⟨by decide, by decide⟩
    · exact ⟨by decide, by decide⟩
  · exact .inr (.inl h)
  · exact .inl (integer_word s h)
  · exact .inl (float_word s h)
  · exact .inr (.inr h)
  · exact .inl ⟨ident_word s h, identifier_ne_nil s h⟩
  · exact .inl (variable_word s h)

theorem word_noLead (s : Str) (h : ∀ c ∈ s, WordChar c) : NoLead s := by
  rintro c cs rfl; exact wordChar_not_ws c (h c (by simp))

theorem word_noTrail (s : Str) (h : ∀ c ∈ s, WordChar c) : NoTrail s := by
  rintro c cs rfl; exact wordChar_not_ws c (h c (by simp))

theorem argument_ne_nil (s : Str) (h : Argument s) : s ≠ [] := by
  rcases argument_cases s h with ⟨-, h⟩ | ⟨c, rfl⟩ | ⟨b, rfl, -⟩
  · exact h
  · simp
  · simp

theorem argument_noLead (s : Str) (h : Argument s) : NoLead s := by
  rcases argument_cases s h with ⟨h, -⟩ | ⟨c, rfl⟩ | ⟨b, rfl, -⟩
  · exact word_noLead s h
  · intro d ds e; injection e with e _; subst e; unfold Ws; decide
  · intro d ds e; injection e with e _; subst e; unfold Ws; decide

theorem argument_noTrail (s : Str) (h : Argument s) : NoTrail s := by
  rcases argument_cases s h with ⟨h, -⟩ | ⟨c, rfl⟩ | ⟨b, rfl, -⟩
  · exact word_noTrail s h
  · intro d ds e
    have := (List.append_inj' (s₁ := [c!"'", c]) (t₁ := [c!"'"]) (s₂ := ds) (t₂ := [d]) (by simpa using e) rfl).2
    simp at this; subst this; unfold Ws; decide
  · intro d ds e
    have := (List.append_inj' (s₁ := c!"\"" :: b) (t₁ := [c!"\""]) (s₂ := ds) (t₂ := [d]) (by simpa using e) rfl).2
    simp at this; subst this; unfold Ws; decide

/-- The text before a space inside an argument is not an argument. -/
theorem argument_split (p : Str) (c : Byte) (q : Str) (h : Argument (p ++ c :: q)) (hc : Ws c) : ¬ Argument p := by
  intro hp
  rcases argument_cases _ h with ⟨hw, -⟩ | ⟨x, e⟩ | hs
  · exact wordChar_not_ws c (hw c (by simp)) hc
  · have hq : ¬ Ws c!"'" := by unfold Ws; decide
    match p, e, hp with
    | [], e, hp => exact argument_ne_nil [] hp rfl
    | [a], e, hp =>
      injection e with e _
      subst e
      rw [← isKeywordMessageArgument_iff] at hp
      exact absurd hp (by decide)
    | [a, b], e, _ => injection e with _ e; injection e with _ e; injection e with e _; subst e; exact hq hc
    | _ :: _ :: _ :: p, e, _ => simp at e
  · have hq : ¬ Ws c!"\"" := by unfold Ws; decide
    obtain ⟨b, e, hb⟩ := hs
    match p, e, hp with
    | [], e, hp => exact argument_ne_nil [] hp rfl
    | a :: p, e, hp =>
      injection e with e e2
      subst e
      rcases argument_cases _ hp with ⟨hw, -⟩ | ⟨x, e⟩ | hs
      · exact absurd (hw c!"\"" (by simp)) (by decide)
      · injection e with e _; exact absurd e (by decide)
      · have := stringValue_prefix_free _ (c :: q) hs ⟨b, by simpa using e2, hb⟩
        cases this

/-! ### Actors: their shape -/

theorem container_shape (s : Str) (h : ContainerType s) :
    ∃ p m, s = p ++ (m ++ [c!">"]) ∧ c!"<" ∈ p ∧ (∀ c ∈ p, ¬ Ws c) ∧ c!">" ∉ p ∧ c!">" ∉ m := by
  have hws : ¬ Ws c!">" := by unfold Ws; decide
  have hl : ¬ Letter c!">" := by unfold Letter; decide
  have hpre : ∀ p : Str, (p.all fun c => !isSpace c) = true → ∀ c ∈ p, ¬ Ws c := by
    intro p hp c hc
    rw [List.all_eq_true] at hp
    have := hp c hc
    rw [← isSpace_iff]; simpa using this
  rcases h with ⟨w, t, w', rfl, hw, ht, hw'⟩ | ⟨w, t, w', rfl, hw, ht, hw'⟩ | ⟨w, k, w', v, t, v', rfl, hw, hk, hw', hv, ht, hv'⟩
  · refine ⟨b!"Vector<", w ++ (t ++ w'), by simp, by decide, hpre _ (by decide), by decide, ?_⟩
    simp [spaces_not_mem w hw _ hws, spaces_not_mem w' hw' _ hws, objectType_not_mem t ht _ hl]
  · refine ⟨b!"Set<", w ++ (t ++ w'), by simp, by decide, hpre _ (by decide), by decide, ?_⟩
    simp [spaces_not_mem w hw _ hws, spaces_not_mem w' hw' _ hws, objectType_not_mem t ht _ hl]
  · refine ⟨b!"Dictionary<", w ++ (k ++ (w' ++ (b!"," ++ (v ++ (t ++ v'))))), by simp, by decide, hpre _ (by decide), by decide, ?_⟩
    simp [spaces_not_mem w hw _ hws, spaces_not_mem w' hw' _ hws, spaces_not_mem v hv _ hws, spaces_not_mem v' hv' _ hws,
      objectType_not_mem t ht _ hl, objectType_not_mem k hk _ hl]

/-- An actor is a word or a container type. -/
theorem actor_cases (s : Str) (h : Actor s) : ((∀ c ∈ s, WordChar c) ∧ s ≠ []) ∨ ContainerType s := by
  rcases h with rfl | rfl | (h | h) | h
  · exact .inl ⟨by decide, by decide⟩
  · exact .inl ⟨by decide, by decide⟩
  · left
    refine ⟨fun c hc => ?_, objectType_ne_nil s h⟩
    by_contra hcon
    exact objectType_not_mem s h c (fun hl => hcon (.inl hl)) hc
  · exact .inr h
  · exact .inl (variable_word s h)

theorem actor_ne_nil (s : Str) (h : Actor s) : s ≠ [] := by
  rcases actor_cases s h with ⟨-, h⟩ | h
  · exact h
  · obtain ⟨p, m, rfl, -⟩ := container_shape s h; simp

theorem actor_noLead (s : Str) (h : Actor s) : NoLead s := by
  rcases actor_cases s h with ⟨h, -⟩ | h
  · exact word_noLead s h
  · obtain ⟨p, m, rfl, hp, hws, -⟩ := container_shape s h
    have hne : p ≠ [] := by rintro rfl; cases hp
    rw [noLead_append _ _ hne]
    rintro c cs rfl
    exact hws c (by simp)

/-- The text before a space inside an actor is not an actor. -/
theorem actor_split (P : Str) (c : Byte) (Q : Str) (h : Actor (P ++ c :: Q)) (hc : Ws c) : ¬ Actor P := by
  intro hP
  rcases actor_cases _ h with ⟨hw, -⟩ | hcon
  · exact wordChar_not_ws c (hw c (by simp)) hc
  · obtain ⟨p, m, e, hlt, hws, hgp, hgm⟩ := container_shape _ hcon
    have hcz : c ≠ c!">" := by rintro rfl; exact absurd hc (by unfold Ws; decide)
    have : ∃ x, P = p ++ x ∧ x ++ c :: Q = m ++ [c!">"] := by
      rcases List.append_eq_append_iff.1 e with ⟨a, h1, h2⟩ | ⟨a, h1, h2⟩
      · cases a with
        | nil => exact ⟨[], by simpa using h1.symm, by simpa using h2⟩
        | cons d a =>
          exfalso
          injection h2 with h2 _
          subst h2
          exact hws c (by rw [h1]; simp) hc
      · exact ⟨a, h1, h2.symm⟩
    obtain ⟨x, rfl, hx⟩ := this
    have hxm : c!">" ∉ x := by
      intro hm
      rcases List.eq_nil_or_concat (c :: Q) with h | ⟨Q', z, h⟩
      · cases h
      · rw [h, List.concat_eq_append] at hx
        have e' : (x ++ Q') ++ [z] = m ++ [c!">"] := by rw [← hx]; simp
        have := (List.append_inj' e' rfl).1
        exact hgm (by rw [← this]; simp [hm])
    rcases actor_cases _ hP with ⟨hw, -⟩ | hcon'
    · exact absurd (hw c!"<" (by simp [hlt])) (by decide)
    · obtain ⟨p', m', e', -⟩ := container_shape _ hcon'
      have : c!">" ∈ p ++ x := by rw [e']; simp
      rcases List.mem_append.1 this with h | h
      · exact hgp h
      · exact hxm h

/-! ### Keyword messages -/

theorem token_ne_nil (t : Str) (h : Token t) : t ≠ [] := by
  obtain ⟨i, -, rfl | rfl⟩ := h <;> simp

theorem token_noLead (t : Str) (h : Token t) : NoLead t := by
  obtain ⟨i, hi, rfl | rfl⟩ := h <;>
  · rw [noLead_append _ _ (identifier_ne_nil i hi)]; exact word_noLead i (ident_word i hi)

theorem ident_no_colon (i : Str) (hi : Identifier i) : c!":" ∉ i ∧ c!"?" ∉ i :=
  ⟨identifier_not_mem i hi _ (by unfold Letter Digit; decide), identifier_not_mem i hi _ (by unfold Letter Digit; decide)⟩

theorem partLoop_first (i : Str) (z : Byte) (rest : Str) (h1 : c!":" ∉ i) (h2 : c!"?" ∉ i) (hz : z = c!":" ∨ z = c!"?") :
    ∀ pre, partLoop pre (i ++ z :: rest) =
      (isKeywordMessageToken (pre ++ (i ++ [z])) && isKeywordMessageArgument (ltrim rest)) := by
  induction i with
  | nil => intro pre; rcases hz with rfl | rfl <;> simp [partLoop]
  | cons c cs ih =>
    intro pre
    have hc1 : c ≠ c!":" := fun e => h1 (by simp [e])
    have hc2 : c ≠ c!"?" := fun e => h2 (by simp [e])
    rw [List.cons_append]
    have : (c == c!":" || c == c!"?") = false := by simp [hc1, hc2]
    simp only [partLoop, this, Bool.false_eq_true, if_false]
    rw [ih (fun hm => h1 (by simp [hm])) (fun hm => h2 (by simp [hm]))]
    simp

theorem partLoop_some (s : Str) : ∀ pre, partLoop pre s = true →
    ∃ i z rest, s = i ++ z :: rest ∧ c!":" ∉ i ∧ c!"?" ∉ i ∧ (z = c!":" ∨ z = c!"?") := by
  induction s with
  | nil => intro pre h; simp [partLoop] at h
  | cons c cs ih =>
    intro pre h
    by_cases hc : c = c!":" ∨ c = c!"?"
    · exact ⟨[], c, cs, rfl, by simp, by simp, hc⟩
    · have hcf : (c == c!":" || c == c!"?") = false := by
        rw [Bool.eq_false_iff]; intro h'; exact hc (by simpa using h')
      simp only [partLoop, hcf, Bool.false_eq_true, if_false] at h
      obtain ⟨i, z, rest, rfl, h1, h2, hz⟩ := ih _ h
      refine ⟨c :: i, z, rest, rfl, ?_, ?_, hz⟩
      · simp [h1]; exact fun e => hc (.inl e.symm)
      · simp [h2]; exact fun e => hc (.inr e.symm)

theorem isKeywordMessagePart_iff (s : Str) :
    isKeywordMessagePart s = true ↔ ∃ tok w arg, s = tok ++ (w ++ arg) ∧ Token tok ∧ Spaces w ∧ Argument arg := by
  constructor
  · intro h
    obtain ⟨i, z, rest, rfl, h1, h2, hz⟩ := partLoop_some s [] h
    unfold isKeywordMessagePart at h
    rw [partLoop_first i z rest h1 h2 hz] at h
    simp only [List.nil_append, Bool.and_eq_true, isKeywordMessageToken_iff, isKeywordMessageArgument_iff] at h
    obtain ⟨w, hw, e⟩ := ltrim_spec rest
    refine ⟨i ++ [z], w, ltrim rest, ?_, h.1, hw, h.2⟩
    rw [← e]; simp
  · rintro ⟨tok, w, arg, rfl, ht, hw, ha⟩
    have ht' := ht
    obtain ⟨i, hi, htok⟩ := ht'
    obtain ⟨h1, h2⟩ := ident_no_colon i hi
    have : ∃ z, tok = i ++ [z] ∧ (z = c!":" ∨ z = c!"?") := by
      rcases htok with rfl | rfl
      · exact ⟨_, rfl, .inl rfl⟩
      · exact ⟨_, rfl, .inr rfl⟩
    obtain ⟨z, rfl, hz⟩ := this
    have e : i ++ [z] ++ (w ++ arg) = i ++ z :: (w ++ arg) := by simp
    unfold isKeywordMessagePart
    rw [e, partLoop_first i z _ h1 h2 hz, ltrim_spaces_append _ _ hw, ltrim_of_noLead _ (argument_noLead arg ha)]
    simp [(isKeywordMessageToken_iff _).2 ht, (isKeywordMessageArgument_iff _).2 ha]

theorem keyword_noLead (t n : Str) (a : List Str) (h : KeywordMessage t n a) : NoLead t := by
  cases h with
  | one ht => rw [noLead_append _ _ (token_ne_nil _ ht)]; exact token_noLead _ ht
  | more ht => rw [noLead_append _ _ (token_ne_nil _ ht)]; exact token_noLead _ ht

theorem keyword_ne_nil (t n : Str) (a : List Str) (h : KeywordMessage t n a) : t ≠ [] := by
  cases h with
  | one ht => have := token_ne_nil _ ht; simp [this]
  | more ht => have := token_ne_nil _ ht; simp

theorem keyword_noTrail (t n : Str) (a : List Str) (h : KeywordMessage t n a) : NoTrail t := by
  induction h with
  | @one tok w arg ht hw ha =>
    rw [noTrail_append _ _ (by simp [argument_ne_nil _ ha]), noTrail_append _ _ (argument_ne_nil _ ha)]
    exact argument_noTrail _ ha
  | @more tok w arg c w' text name args ht hw ha hc hw' hk ih =>
    have hne := keyword_ne_nil _ _ _ hk
    have e : tok ++ (w ++ (arg ++ (c :: (w' ++ text)))) = (tok ++ (w ++ (arg ++ (c :: w')))) ++ text := by simp
    rw [e, noTrail_append _ _ hne]
    exact ih

theorem isKeywordMessageF_sound (fuel : Nat) : ∀ s, isKeywordMessageF fuel s = true → ∃ n a, KeywordMessage s n a := by
  induction fuel with
  | zero => intro s h; simp [isKeywordMessageF] at h
  | succ fuel ih =>
    intro s h
    simp only [isKeywordMessageF] at h
    split at h
    · rename_i hp
      obtain ⟨tok, w, arg, rfl, ht, hw, ha⟩ := (isKeywordMessagePart_iff s).1 hp
      exact ⟨tok, [arg], .one ht hw ha⟩
    · rw [List.any_eq_true] at h
      obtain ⟨i, hi, h⟩ := h
      simp only [Bool.and_eq_true] at h
      obtain ⟨⟨hsp, hp⟩, hk⟩ := h
      obtain ⟨tok, w, arg, e, ht, hw, ha⟩ := (isKeywordMessagePart_iff _).1 hp
      obtain ⟨n, a, hk⟩ := ih _ hk
      obtain ⟨w', hw', e'⟩ := ltrim_spec (s.drop (i + 1))
      have hi : i < s.length := by simpa using hi
      have hg : s.getD i 0 = s[i] := by simp [List.getD, hi]
      have hs : s = tok ++ (w ++ (arg ++ (s[i] :: (w' ++ ltrim (s.drop (i + 1)))))) := by
        rw [← e', ← List.drop_eq_getElem_cons hi]
        have := List.take_append_drop i s
        rw [e] at this
        simpa using this.symm
      refine ⟨tok ++ n, arg :: a, ?_⟩
      rw [hs]
      rw [hg] at hsp
      exact .more ht hw ha ((isSpace_iff _).1 hsp) hw' hk

theorem isKeywordMessageF_complete (t n : Str) (a : List Str) (h : KeywordMessage t n a) :
    ∀ fuel, t.length < fuel → isKeywordMessageF fuel t = true := by
  induction h with
  | @one tok w arg ht hw ha =>
    intro fuel hf
    cases fuel with
    | zero => omega
    | succ fuel =>
      have := (isKeywordMessagePart_iff _).2 ⟨tok, w, arg, rfl, ht, hw, ha⟩
      simp [isKeywordMessageF, this]
  | @more tok w arg c w' text name args ht hw ha hc hw' hk ih =>
    intro fuel hf
    cases fuel with
    | zero => omega
    | succ fuel =>
      simp only [isKeywordMessageF]
      split
      · rfl
      · rw [List.any_eq_true]
        have e : tok ++ (w ++ (arg ++ (c :: (w' ++ text)))) = (tok ++ (w ++ arg)) ++ (c :: (w' ++ text)) := by simp
        refine ⟨(tok ++ (w ++ arg)).length, by rw [e]; simp, ?_⟩
        rw [e]
        have h1 : ((tok ++ (w ++ arg)) ++ (c :: (w' ++ text))).getD (tok ++ (w ++ arg)).length 0 = c := by
          simp [List.getD]
        have h2 : ((tok ++ (w ++ arg)) ++ (c :: (w' ++ text))).take (tok ++ (w ++ arg)).length = tok ++ (w ++ arg) :=
          List.take_left
        have h3 : ((tok ++ (w ++ arg)) ++ (c :: (w' ++ text))).drop ((tok ++ (w ++ arg)).length + 1) = w' ++ text := by
          rw [← List.drop_drop, List.drop_left]; rfl
        rw [h1, h2, h3, ltrim_spaces_append _ _ hw', ltrim_of_noLead _ (keyword_noLead _ _ _ hk)]
        rw [(isSpace_iff c).2 hc, (isKeywordMessagePart_iff _).2 ⟨tok, w, arg, rfl, ht, hw, ha⟩]
        simp only [Bool.and_self, Bool.true_and]
        refine ih fuel ?_
        simp at hf; omega

theorem isKeywordMessage_iff (s : Str) : isKeywordMessage s = true ↔ ∃ n a, KeywordMessage s n a :=
  ⟨isKeywordMessageF_sound _ s, fun ⟨_, _, h⟩ => isKeywordMessageF_complete _ _ _ h _ (by omega)⟩

/-- The fuel given to `isKeywordMessageF` is enough: more does not change the answer. -/
theorem isKeywordMessageF_fuel (s : Str) (fuel : Nat) (h : s.length < fuel) :
    isKeywordMessageF fuel s = isKeywordMessage s := by
  rw [Bool.eq_iff_iff, isKeywordMessage_iff]
  exact ⟨isKeywordMessageF_sound _ s, fun ⟨_, _, hk⟩ => isKeywordMessageF_complete _ _ _ hk _ h⟩

/-- A keyword message is not a unary message. -/
theorem keyword_not_unary (t n : Str) (a : List Str) (h : KeywordMessage t n a) : ¬ UnaryMessage t := by
  have key : ∀ tok r : Str, Token tok → r ≠ [] → ¬ UnaryMessage (tok ++ r) := by
    intro tok r ht hr hu
    obtain ⟨i, hi, htok⟩ := ht
    rcases hu with hu | ⟨j, e, hj⟩
    · obtain ⟨h1, h2⟩ := ident_no_colon _ hu
      rcases htok with rfl | rfl
      · exact h1 (by simp)
      · exact h2 (by simp)
    · obtain ⟨h1, h2⟩ := ident_no_colon _ hj
      rcases List.eq_nil_or_concat r with rfl | ⟨r', z, rfl⟩
      · exact hr rfl
      · have e' : (tok ++ r') ++ [z] = j ++ [c!"?"] := by rw [← e]; simp
        have := (List.append_inj' e' rfl).1
        subst this
        rcases htok with rfl | rfl
        · exact h1 (by simp)
        · exact h2 (by simp)
  cases h with
  | one ht hw ha => exact key _ _ ht (by simp [argument_ne_nil _ ha])
  | more ht => exact key _ _ ht (by simp)

end Knuckle
