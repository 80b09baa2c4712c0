/-
C09–C11, C27: strings.
-/
import Verif.Proofs.Escape
import Verif.Props.Demo

namespace Knuckle.Props

open Spec

variable {pwd pwd' : Str} {c c' : Ctx} {s s' : Option Session}

/-! ### C09 -/

/-- C09: after `n set: a;` with a string literal `a`, the request `n get;` is answered with exactly `a` (whoever asks, and
however the two requests are laid out). -/
theorem C09_set_get [StdSort] {n t₁ t₂ a v : Str} (hc : Reachable c) (hn : Holds c n (.string v)) (ha : StringValue a)
    (h₁ : Statement t₁ n b!"set:" [a]) (h₂ : Statement t₂ n b!"get" []) :
    ∃ c₁, Replies pwd c s t₁ b!"null" c₁ ∧ ∀ pwd' s', JustReplies pwd' c₁ s' t₂ a := by
  obtain ⟨w, hw⟩ : ∃ w, StringLiteral a w := by
    obtain ⟨b, rfl, hb⟩ := ha; exact ⟨_, b, rfl, hb, unquoted_exists b hb⟩
  obtain ⟨c₁, hr, ho⟩ := answers_str (pwd := pwd) (s := s) hc hn h₁ (.set hw)
  have hn₁ : Holds c₁ n (.string w) := by unfold Holds; rw [ho.2.2, if_pos rfl]
  refine ⟨c₁, hr, fun pwd' s' => ?_⟩
  have hc₁ : Reachable c₁ := .step hc hr
  have := justReplies_of hc₁ hn₁ (answers_str (pwd := pwd') (s := s') hc₁ hn₁ h₂ .get)
  rwa [literal_quoted a w hw] at this

example : StringValue b!"\"a \\\" \\\\ b\"" := (isStringValue_iff _).1 (by decide)

example [StdSort] : Reachable demo ∧ Holds demo b!"a::s" (.string b!"say \"hi\"") ∧
    Statement b!"a::s set: \"\\\"\" ;" b!"a::s" b!"set:" [b!"\"\\\"\""] ∧ Statement b!"a::s get;" b!"a::s" b!"get" [] :=
  ⟨demo_reachable, by decide +kernel, reads (by decide +kernel), reads (by decide +kernel)⟩

/-! ### C10 -/

/-- C10: if two string variables (in any two contexts) answer `get` with the same text, they have the same value. -/
theorem C10_printed_string_determines_value [StdSort] {n n' t t' v v' r : Str} (hc : Reachable c) (hc' : Reachable c')
    (hn : Holds c n (.string v)) (hn' : Holds c' n' (.string v')) (h : Statement t n b!"get" [])
    (h' : Statement t' n' b!"get" []) (hr : JustReplies pwd c s t r) (hr' : JustReplies pwd' c' s' t' r) : v = v' := by
  obtain ⟨d, hd, _⟩ := justReplies_of hc hn (answers_str (pwd := pwd) (s := s) hc hn h .get)
  obtain ⟨d', hd', _⟩ := justReplies_of hc' hn' (answers_str (pwd := pwd') (s := s') hc' hn' h' .get)
  obtain ⟨e, he, _⟩ := hr
  obtain ⟨e', he', _⟩ := hr'
  unfold Replies at hd hd' he he'
  rw [hd] at he; rw [hd'] at he'
  cases he
  injection he' with he'
  injection he' with _ he'
  injection he' with _ he'
  exact (quoted_inj _ _ he').symm

/-- C10: the value is recovered from the printed form by dropping the outer quotes and un-escaping; every byte string. -/
theorem C10_unescape_printed (v : Str) : unescape c!"\"" (((quoted v).drop 1).dropLast) = v := by
  unfold quoted; simp [unescape_escape]

/-- A context whose variable `a::s` answers with a reply that contains quotes. -/
example [StdSort] : JustReplies [] demo none b!"a::s get;" b!"\"say \\\"hi\\\"\"" :=
  justReplies_of (n := b!"a::s") (i := .string b!"say \"hi\"") demo_reachable (by decide +kernel)
    (answers_str demo_reachable (n := b!"a::s") (v := b!"say \"hi\"") (by decide +kernel) (reads (by decide +kernel)) .get)

/-! ### C11 -/

/-- An even number of backslashes directly before every quote and at the end. -/
def EvenRuns (v : Str) : Prop :=
  (∀ p q, v = p ++ c!"\"" :: q → (p.reverse.takeWhile (· == c!"\\")).length % 2 = 0) ∧
  (v.reverse.takeWhile (· == c!"\\")).length % 2 = 0

theorem evenRuns_iff (v : Str) : EvenRuns v ↔ ValParity [] v := by simp [EvenRuns, ValParity, trail]

/-- C11: the reply to `get` on a string variable is a string literal exactly when the value has even runs of backslashes
before quotes and at its end, and then it denotes the value. -/
theorem C11_printed_string_is_literal_iff [StdSort] {n t v : Str} (hc : Reachable c) (hn : Holds c n (.string v))
    (h : Statement t n b!"get" []) :
    ∃ r, JustReplies pwd c s t r ∧ (StringValue r ↔ EvenRuns v) ∧ (StringValue r → StringLiteral r v) := by
  refine ⟨quoted v, justReplies_of hc hn (answers_str hc hn h .get), ?_, ?_⟩
  · rw [evenRuns_iff]; exact quoted_value_iff v
  · intro hr; exact (quoted_literal_iff v).2 ((quoted_value_iff v).1 hr)

set_option maxRecDepth 100000 in
/-- C11: values without literal are reachable: a string of two backslashes, then `popBack`. -/
theorem C11_unprintable_value_reachable [StdSort] :
    ∃ c v, Reachable c ∧ Holds c b!"x" (.string v) ∧ ¬ EvenRuns v ∧
      JustReplies [] c none b!"x get;" b!"\"\\\"" ∧ ¬ StringValue b!"\"\\\"" := by
  have hr : Reachable { fresh with vars := [(b!"x", .string b!"\\")] } :=
    after_reachable (pwd := []) (s := none) (ts := [b!"String create: x withValue: \"\\\\\";", b!"x popBack;"]) fresh_reachable rfl
  refine ⟨_, b!"\\", hr, by rfl, ?_, justReplies_of hr (i := .string b!"\\") (n := b!"x") rfl (answers_str (n := b!"x") (v := b!"\\") hr (by rfl) ?_ .get), ?_⟩
  · intro h; have := h.2; revert this; decide
  · exact reads (by decide +kernel)
  · rw [← isStringValue_iff]; decide

/-! ### C27 -/

/-- C27: every message to a string variable behaves as the corresponding operation on the byte sequence
(`Spec.strMeaning`): the addressed bytes are returned, the value changes in exactly that way, indices out of range are
refused without any change, and nothing else changes. -/
theorem C27_strings_are_byte_sequences [StdSort] {n t name v : Str} {args : List Str} {m : StrMsg} (hc : Reachable c)
    (hn : Holds c n (.string v)) (h : Statement t n name args) (hm : StrSays name args m) :
    Answers pwd c s t n ((strMeaning v m).map .string) := answers_str hc hn h hm

/-- C27, spelled out for three messages: slices, insertion, and refusal. -/
theorem C27_substring [StdSort] {n t v a b : Str} {i j : Int} (hc : Reachable c) (hn : Holds c n (.string v))
    (ha : Denotes b!"Integer" a (.integer i)) (hb : Denotes b!"Integer" b (.integer j))
    (h : Statement t n b!"substringFromIndex:toIndex:" [a, b]) :
    (0 ≤ i → i ≤ j → j ≤ v.length → JustReplies pwd c s t (quoted ((v.take j.toNat).drop i.toNat))) ∧
    (¬ (0 ≤ i ∧ i ≤ j ∧ j ≤ v.length) → JustReplies pwd c s t b!"RuntimeError: invalid argument.") := by
  have := answers_str (pwd := pwd) (s := s) hc hn h (.substringTo ha hb)
  constructor
  · intro h1 h2 h3
    rw [show strMeaning v (.substringTo i j) = .gives v (quoted ((v.take j.toNat).drop i.toNat)) from if_pos ⟨h1, h2, h3⟩] at this
    exact justReplies_of hc hn this
  · intro h1
    rw [show strMeaning v (.substringTo i j) = .refuses from if_neg h1] at this
    exact this

/-- C27: a value put together byte by byte: `pushBack:` then `popBack` returns the byte and restores the value. -/
theorem C27_pushBack_popBack [StdSort] {n t₁ t₂ v : Str} {b : Byte} (hc : Reachable c) (hn : Holds c n (.string v))
    (h₁ : Statement t₁ n b!"pushBack:" [[c!"'", b, c!"'"]]) (h₂ : Statement t₂ n b!"popBack" []) :
    ∃ c₁ c₂, Replies pwd c s t₁ b!"null" c₁ ∧ Holds c₁ n (.string (v ++ [b])) ∧
      Replies pwd c₁ s t₂ [c!"'", b, c!"'"] c₂ ∧ SameData c c₂ := by
  obtain ⟨c₁, hr, ho⟩ := answers_str (pwd := pwd) (s := s) hc hn h₁ .pushBack
  have hn₁ : Holds c₁ n (.string (v ++ [b])) := by unfold Holds; rw [ho.2.2, if_pos rfl]
  have hc₁ : Reachable c₁ := .step hc hr
  have h2 := answers_str (pwd := pwd) (s := s) hc₁ hn₁ h₂ .popBack
  have e : strMeaning (v ++ [b]) .popBack = .gives v [c!"'", b, c!"'"] := by
    simp only [strMeaning, List.getLast?_concat, List.dropLast_concat]; rfl
  rw [e] at h2
  obtain ⟨c₂, hr₂, ho₂⟩ := h2
  refine ⟨c₁, c₂, hr, hn₁, hr₂, onlyChanged_same hc hn ?_⟩
  refine ⟨ho₂.1.trans ho.1, ho₂.2.1.trans ho.2.1, fun m => ?_⟩
  rw [ho₂.2.2, ho.2.2]; split <;> rfl

/-- A concrete message with two arguments, and one that is refused. -/
example [StdSort] : Answers [] demo none b!"a::s substringFromIndex: 4 toIndex: 6;" b!"a::s"
      (.gives (.string b!"say \"hi\"") b!"\"\\\"h\"") ∧
    Answers [] demo none b!"a::s atIndex: 8;" b!"a::s" .refuses := by
  have h := C27_strings_are_byte_sequences (pwd := []) (s := none) demo_reachable (n := b!"a::s") (v := b!"say \"hi\"")
    (t := b!"a::s substringFromIndex: 4 toIndex: 6;") (args := [b!"4", b!"6"]) (by decide +kernel)
    (reads (by decide +kernel)) (.substringTo (i := 4) (j := 6) (lit_int rfl rfl (by decide)) (lit_int rfl rfl (by decide)))
  have h' := C27_strings_are_byte_sequences (pwd := []) (s := none) demo_reachable (n := b!"a::s") (v := b!"say \"hi\"")
    (t := b!"a::s atIndex: 8;") (args := [b!"8"]) (by decide +kernel)
    (reads (by decide +kernel)) (.atIndex (i := 8) (lit_int rfl rfl (by decide)))
  exact ⟨h, h'⟩

/-! ### Every theorem applied to a case -/

example [StdSort] := C10_printed_string_determines_value (pwd := []) (pwd' := []) (s := none) (s' := none) (c := demo) (c' := demo) (n := b!"a::s")
  (n' := b!"a::s") (t := b!"a::s get;") (t' := b!" a::s  get ;") (v := b!"say \"hi\"") (v' := b!"say \"hi\"") (r := b!"\"say \\\"hi\\\"\"")
  (by meets) (by meets) (by meets) (by meets) (by meets) (by meets) (by meets) (by meets)
example [StdSort] := C11_printed_string_is_literal_iff (pwd := []) (s := none) (c := demo) (n := b!"a::s") (t := b!"a::s get;")
  (v := b!"say \"hi\"") (by meets) (by meets) (by meets)
example [StdSort] := C27_strings_are_byte_sequences (pwd := []) (s := none) (c := demo) (n := b!"a::s") (t := b!"a::s substringFromIndex: 3;")
  (v := b!"say \"hi\"") (name := b!"substringFromIndex:") (args := [b!"3"]) (by meets) (by meets) (by meets) (.substring (i := 3) (by meets))
example [StdSort] := C27_substring (pwd := []) (s := none) (c := demo) (n := b!"a::s") (t := b!"a::s substringFromIndex: 4 toIndex: 8;")
  (v := b!"say \"hi\"") (i := 4) (j := 8) (by meets) (by meets) (a := b!"4") (b := b!"8") (by meets) (by meets) (by meets)

end Knuckle.Props
