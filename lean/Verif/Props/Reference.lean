/-
C64: the reference manual of README.md.
-/
import Verif.Proofs.Reference
import Verif.Props.Undefined

namespace Knuckle.Props

open Spec

variable {pwd : Str} {c c' : Ctx} {s s' : Option Session} {text a name r : Str} {args : List Str}

theorem docFor_exists {p : Str} {k : Bool} (h : DocFor c a p k) (hs : s ≠ none) : Exists c s a := by
  cases h with
  | object h => exact .inl (.inl h)
  | vector h => exact .inl (.inr (.inl h))
  | set h => exact .inl (.inr (.inr (.inl h)))
  | dictionary h => exact .inl (.inr (.inr (.inr h)))
  | «variable» h => exact .inr (.inr (.inr ⟨_, h⟩))
  | context => exact .inr (.inl rfl)
  | connection => exact .inr (.inr (.inl ⟨rfl, hs⟩))

/-- C64: every receiver a client can address is the subject of one section of the manual. -/
theorem C64_every_receiver_has_its_section [StdSort] (hc : Reachable c) (hx : Exists c s a) :
    ∃ p k, DocFor c a p k ∧ ∀ p' k', DocFor c a p' k' → p' = p ∧ k' = k := by
  have hi := reachable_inv hc
  rcases hx with ht | rfl | ⟨rfl, _⟩ | ⟨i, h⟩
  · rcases ht with ht | ht | ht | ht
    · refine ⟨a, true, .object ht, fun p' k' h => ?_⟩
      cases h with
      | object h => exact ⟨rfl, rfl⟩
      | vector h => exact absurd ht (containerType_not_object (.inl h))
      | set h => exact absurd ht (containerType_not_object (.inr (.inl h)))
      | dictionary h => exact absurd ht (containerType_not_object (.inr (.inr h)))
      | «variable» h => exact absurd (inv_variable hi h) (type_not_variable (.inl ht))
      | context => exact absurd rfl (type_not_special (.inl ht)).1
      | connection => exact absurd rfl (type_not_special (.inl ht)).2
    · have hT : IsType a := .inr (.inl ht)
      refine ⟨_, true, .vector ht, fun p' k' h => ?_⟩
      cases h with
      | object h => exact absurd h (containerType_not_object (.inl ht))
      | vector h => exact ⟨rfl, rfl⟩
      | set h => obtain ⟨_, _, _, rfl, _⟩ := ht; obtain ⟨_, _, _, e, _⟩ := h; simp at e
      | dictionary h => obtain ⟨_, _, _, rfl, _⟩ := ht; obtain ⟨_, _, _, _, _, _, e, _⟩ := h; simp at e
      | «variable» h => exact absurd (inv_variable hi h) (type_not_variable hT)
      | context => exact absurd rfl (type_not_special hT).1
      | connection => exact absurd rfl (type_not_special hT).2
    · have hT : IsType a := .inr (.inr (.inl ht))
      refine ⟨_, true, .set ht, fun p' k' h => ?_⟩
      cases h with
      | object h => exact absurd h (containerType_not_object (.inr (.inl ht)))
      | set h => exact ⟨rfl, rfl⟩
      | vector h => obtain ⟨_, _, _, rfl, _⟩ := ht; obtain ⟨_, _, _, e, _⟩ := h; simp at e
      | dictionary h => obtain ⟨_, _, _, rfl, _⟩ := ht; obtain ⟨_, _, _, _, _, _, e, _⟩ := h; simp at e
      | «variable» h => exact absurd (inv_variable hi h) (type_not_variable hT)
      | context => exact absurd rfl (type_not_special hT).1
      | connection => exact absurd rfl (type_not_special hT).2
    · have hT : IsType a := .inr (.inr (.inr ht))
      refine ⟨_, true, .dictionary ht, fun p' k' h => ?_⟩
      cases h with
      | object h => exact absurd h (containerType_not_object (.inr (.inr ht)))
      | dictionary h => exact ⟨rfl, rfl⟩
      | vector h => obtain ⟨_, _, _, _, _, _, rfl, _⟩ := ht; obtain ⟨_, _, _, e, _⟩ := h; simp at e
      | set h => obtain ⟨_, _, _, _, _, _, rfl, _⟩ := ht; obtain ⟨_, _, _, e, _⟩ := h; simp at e
      | «variable» h => exact absurd (inv_variable hi h) (type_not_variable hT)
      | context => exact absurd rfl (type_not_special hT).1
      | connection => exact absurd rfl (type_not_special hT).2
  · exact ⟨_, _, .context, fun _ _ h => docFor_context hi h⟩
  · exact ⟨_, _, .connection, fun _ _ h => docFor_connection hi h⟩
  · exact ⟨_, _, .variable h, fun _ _ h' => docFor_variable h' (inv_variable hi h) h⟩

/-- C64: the messages of the manual are understood, and no others: a message to an existing receiver is answered with
"invalid message" exactly if the manual has no entry for it. -/
theorem C64_understood_iff_documented [StdSort] (hc : Reachable c) (hst : Statement text a name args)
    (hx : Exists c s a) :
    JustReplies pwd c s text b!"RuntimeError: invalid message." ↔ ¬ ∃ e, Documented c a name e := by
  rw [C49_invalid_message hc hst]
  obtain ⟨p, k, hd, _⟩ := C64_every_receiver_has_its_section hc hx
  have hi := reachable_inv hc
  constructor
  · rintro ⟨_, hn⟩ ⟨e, hm, hf, he⟩
    obtain ⟨ks, hu, _⟩ := (agrees hi hf name).1 e (mem_entriesOf.2 ⟨hm, rfl, rfl⟩) he
    exact hn ⟨ks, hu⟩
  · intro hn
    refine ⟨hx, fun ⟨ks, hu⟩ => hn ?_⟩
    obtain ⟨e, he, h2⟩ := (agrees hi hd name).2 ks hu
    obtain ⟨h3, rfl, rfl⟩ := mem_entriesOf.1 he
    exact ⟨e, h3, hd, h2⟩

/-- C64: the number of arguments is the documented one: any other is answered with "wrong number of arguments". -/
theorem C64_documented_number_of_arguments [StdSort] {e : DocEntry} (hc : Reachable c) (hst : Statement text a name args)
    (hs : s ≠ none) (he : Documented c a name e) :
    JustReplies pwd c s text b!"RuntimeError: wrong number of arguments." ↔ args.length ≠ e.args.length := by
  have hi := reachable_inv hc
  obtain ⟨hm, hf, hn⟩ := he
  obtain ⟨ks, hu, hl, _⟩ := (agrees hi hf name).1 e (mem_entriesOf.2 ⟨hm, rfl, rfl⟩) hn
  rw [C49_wrong_number_of_arguments hc hst]
  constructor
  · rintro ⟨_, ks', hu', h⟩
    rw [understands_unique hi hu' hu, hl] at h; exact h
  · intro h
    exact ⟨docFor_exists hf hs, ks, hu, by rw [hl]; exact h⟩

/-- C64: arguments of the documented kinds are accepted: with them, a message is answered with "invalid argument" only
if an index, a number of elements or a new setting is out of the domain of the message. -/
theorem C64_documented_arguments_are_accepted [StdSort] {e : DocEntry} (hc : Reachable c) (hst : Statement text a name args)
    (he : Documented c a name e)
    (hk : ∀ j (h1 : j < e.args.length) (h2 : j < args.length), OfKind (ObjectArg c a name j) e.args[j] args[j])
    (h : JustReplies pwd c s text b!"RuntimeError: invalid argument.") : OutOfDomain c a name args := by
  have hi := reachable_inv hc
  obtain ⟨hm, hf, hn⟩ := he
  obtain ⟨ks, hu, hl, hfit⟩ := (agrees hi hf name).1 e (mem_entriesOf.2 ⟨hm, rfl, rfl⟩) hn
  rcases (C49_invalid_argument_why hc hst h).2 with ⟨ks', hu', _, q, hq, hnf⟩ | h
  · rw [understands_unique hi hu' hu] at hq
    exact absurd (hfit args hk q hq) hnf
  · exact h

/-- C64: the manual is right about the replies: a reply that is not an error is of the documented kind; only `popBack`,
`popFront` and `getValueForKey:` may also be answered with `null`. -/
theorem C64_documented_replies [StdSort] {e : DocEntry} (hc : Reachable c) (hst : Statement text a name args)
    (he : Documented c a name e) (h : execute pwd c s text = .done (c', s', r)) (hr : r ∉ errorTexts) :
    ReplyOf e.returns r ∨ (r = b!"null" ∧ name ∈ [b!"popBack", b!"popFront", b!"getValueForKey:"]) := by
  have hi := reachable_inv hc
  obtain ⟨x, _, hd | ⟨ex, _, rfl⟩⟩ := execute_done hi h
  · exact does_reply hi hst hd he
  · exact absurd (exc_text_error ex) hr

/-! ### The hypotheses can be met -/

/-- Every entry of the manual has a receiver in the demonstration. -/
example (e : DocEntry) (he : e ∈ manual) : ∃ a, DocFor demo a e.part e.constructor := by
  have key : (manual.all fun e => [(b!"Boolean", true), (b!"Boolean", false), (b!"Character", true), (b!"Character", false),
      (b!"Integer", true), (b!"Integer", false), (b!"Float", true), (b!"Float", false), (b!"String", true), (b!"String", false),
      (b!"Vector", true), (b!"Vector", false), (b!"Set", true), (b!"Set", false), (b!"Dictionary", true), (b!"Dictionary", false),
      (b!"Context", false), (b!"Connection", false)].contains (e.part, e.constructor)) = true := by decide +kernel
  have := List.all_eq_true.1 key e he
  simp only [List.contains_iff_mem, List.mem_cons, List.not_mem_nil, or_false, Prod.mk.injEq] at this
  have none_spaces : Spaces [] := fun b hb => by cases hb
  rcases this with ⟨h1, h2⟩ | ⟨h1, h2⟩ | ⟨h1, h2⟩ | ⟨h1, h2⟩ | ⟨h1, h2⟩ | ⟨h1, h2⟩ | ⟨h1, h2⟩ | ⟨h1, h2⟩ | ⟨h1, h2⟩ | ⟨h1, h2⟩ |
    ⟨h1, h2⟩ | ⟨h1, h2⟩ | ⟨h1, h2⟩ | ⟨h1, h2⟩ | ⟨h1, h2⟩ | ⟨h1, h2⟩ | ⟨h1, h2⟩ | ⟨h1, h2⟩ <;> rw [h1, h2]
  · exact ⟨_, .object (by simp [ObjectType])⟩
  · exact ⟨b!"b", .variable (i := .boolean true) (by decide +kernel)⟩
  · exact ⟨_, .object (by simp [ObjectType])⟩
  · exact ⟨b!"a::c", .variable (i := .character c!"x") (by decide +kernel)⟩
  · exact ⟨_, .object (by simp [ObjectType])⟩
  · exact ⟨b!"i", .variable (i := .integer (-7)) (by decide +kernel)⟩
  · exact ⟨_, .object (by simp [ObjectType])⟩
  · exact ⟨b!"f", .variable (i := .float (.fin false (3 * 2 ^ 1073))) (by decide +kernel)⟩
  · exact ⟨_, .object (by simp [ObjectType])⟩
  · exact ⟨b!"a::s", .variable (i := .string b!"say \"hi\"") (by decide +kernel)⟩
  · exact ⟨_, .vector ⟨[], b!"Integer", [], rfl, none_spaces, by simp [ObjectType], none_spaces⟩⟩
  · exact ⟨b!"v", .variable (i := .vector b!"Integer" [.integer 3, .integer 1, .integer 2]) (by decide +kernel)⟩
  · exact ⟨_, .set ⟨[], b!"Integer", [], rfl, none_spaces, by simp [ObjectType], none_spaces⟩⟩
  · exact ⟨b!"t", .variable (i := .set b!"String" [.string b!"x", .string b!"y"]) (by decide +kernel)⟩
  · exact ⟨_, .dictionary ⟨[], b!"Integer", [], [], b!"Float", [], rfl, none_spaces, by simp [ObjectType], none_spaces, none_spaces,
      by simp [ObjectType], none_spaces⟩⟩
  · exact ⟨b!"d", .variable (i := .dictionary b!"Character" b!"Integer" [(.character c!"k", .integer 1)]) (by decide +kernel)⟩
  · exact ⟨_, .context⟩
  · exact ⟨_, .connection⟩

/-- `d associateValue: 2 withKey: 'q'` is documented, and its arguments are of the documented kinds. -/
example : Documented demo b!"d" b!"associateValue:withKey:" ⟨b!"Dictionary", false, b!"associateValue:withKey:", [.object, .object], .null⟩ ∧
    (∀ j (h1 : j < 2) (h2 : j < 2), OfKind (ObjectArg demo b!"d" b!"associateValue:withKey:" j) [DocKind.object, .object][j] [b!"2", b!"'q'"][j]) ∧
    Statement b!"d associateValue: 2 withKey: 'q';" b!"d" b!"associateValue:withKey:" [b!"2", b!"'q'"] := by
  have hd : Holds demo b!"d" (.dictionary b!"Character" b!"Integer" [(.character c!"k", .integer 1)]) := by decide +kernel
  refine ⟨⟨?_, .variable hd, rfl⟩, ?_, reads (by decide +kernel)⟩
  · decide +kernel
  · intro j h1 _
    rcases j with _ | _ | j
    · exact ⟨_, .value hd, .inr (.inr (.inl ⟨rfl, .inl ((isIntegerValue_iff b!"2").1 (by decide))⟩))⟩
    · exact ⟨_, .key hd (by decide), .inr (.inl ⟨rfl, c!"q", rfl⟩)⟩
    · omega

/-- A documented `null`, and a reply of the documented kind. -/
example [StdSort] : execute [] demo none b!"v sliceFromIndex: 1;" = .done (demo, none, b!"[1,2]") ∧
    Documented demo b!"v" b!"sliceFromIndex:" ⟨b!"Vector", false, b!"sliceFromIndex:", [.integer], .vector⟩ :=
  ⟨by kernel_rfl, by decide +kernel, .variable (i := .vector b!"Integer" [.integer 3, .integer 1, .integer 2]) (by decide +kernel), rfl⟩

end Knuckle.Props
