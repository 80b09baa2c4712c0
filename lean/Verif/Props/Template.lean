/-
C96: what a text put between quotes can do to a request.
-/
import Verif.Proofs.Template
import Verif.Props.Grammar
import Verif.Props.Undefined
import Verif.Props.Server

namespace Knuckle.Props

open Spec

variable {pwd pre post a n m u : Str} {c : Ctx} {s : Option Session} {as bs : List Str} {ks : List ArgKind}

/-! ### The tables -/

/-- The kind of argument is not one that a string can have. -/
def noString : Option ArgKind → Bool
  | some (.lit t) => t == b!"Integer"
  | some _ => true
  | none => false

/-- If the name `q.1` is the name `N` with parts inserted after one of its parts, then it is one part, and the argument before it or its
argument is not a string. -/
def insertedIsNoString (N : Str) (q : Str × List ArgKind) : Bool :=
  (List.range (N.length + 1)).all fun i =>
    let j := i + (q.1.length - N.length)
    !(isMark ((N.take i).getLastD 0) && N.take i == q.1.take i && N.drop i == q.1.drop j && isMark ((q.1.take j).getLastD 0) && i < j) ||
      (marks (q.1.take j) == marks (N.take i) + 1 && (noString q.2[marks (N.take i)]? || noString q.2[marks (N.take i) - 1]?))

theorem signature_inserted (i : Inst) : ((signature i).all fun p => (signature i).all fun q => insertedIsNoString p.1 q) = true := by
  cases i <;> kernel_rfl

theorem contextSignature_inserted : (contextSignature.all fun p => contextSignature.all fun q => insertedIsNoString p.1 q) = true := by
  kernel_rfl

theorem connectionSignature_inserted :
    (connectionSignature.all fun p => connectionSignature.all fun q => insertedIsNoString p.1 q) = true := by
  kernel_rfl

theorem inserted {T : List (Str × List ArgKind)} (hT : (T.all fun p => T.all fun q => insertedIsNoString p.1 q) = true)
    {n k m : Str} {ks ks' : List ArgKind} (h : (n ++ m, ks) ∈ T) (h' : (n ++ (k ++ m), ks') ∈ T)
    (hn : ∃ i x, n = i ++ [x] ∧ isMark x = true) (hk : ∃ i x, k = i ++ [x] ∧ isMark x = true) :
    marks k = 1 ∧ (noString ks'[marks n]? = true ∨ noString ks'[marks n - 1]? = true) := by
  have h1 := List.all_eq_true.1 (List.all_eq_true.1 hT _ h) _ h'
  simp only [insertedIsNoString] at h1
  have h2 := List.all_eq_true.1 h1 n.length (by simp; omega)
  have e0 : n.length + ((n ++ (k ++ m)).length - (n ++ m).length) = n.length + k.length := by simp; omega
  have e1 : (n ++ m).take n.length = n := by simp
  have e2 : (n ++ m).drop n.length = m := by simp
  have e3 : (n ++ (k ++ m)).take n.length = n := by simp
  have e4 : (n ++ (k ++ m)).take (n.length + k.length) = n ++ k := by
    rw [← List.append_assoc, ← List.length_append, List.take_left]
  have e5 : (n ++ (k ++ m)).drop (n.length + k.length) = m := by
    rw [← List.append_assoc, ← List.length_append, List.drop_left]
  obtain ⟨i, x, rfl, hx⟩ := hn
  obtain ⟨j, y, rfl, hy⟩ := hk
  rw [e0, e1, e2, e3, e4, e5, marks_append (i ++ [x])] at h2
  have g : ∀ (l : List Byte) (z : Byte), (l ++ [z]).getLastD 0 = z := by simp
  have g2 : ((i ++ [x]) ++ (j ++ [y])).getLastD 0 = y := by rw [← List.append_assoc]; exact g _ _
  rw [g, g2, hx, hy] at h2
  have g3 : i.length + 1 < i.length + 1 + (j.length + 1) := by omega
  simp only [List.length_append, List.length_cons, List.length_nil, Nat.zero_add, beq_self_eq_true, Bool.and_true, g3,
    decide_true, Bool.not_true, Bool.false_or, Bool.and_eq_true, beq_iff_eq, Bool.or_eq_true] at h2
  exact ⟨by omega, h2.2⟩

theorem string_not_fits {k : ArgKind} {b : Str} (h : noString (some k) = true) : ¬ Fits k (inQuotes b) := by
  have hw : ¬ WordChar c!"\"" := by decide
  have hi : ¬ IntegerValue (inQuotes b) := fun h => hw ((integer_word _ h).1 _ (by simp [inQuotes]))
  have hf : ¬ FloatValue (inQuotes b) := fun h => hw ((float_word _ h).1 _ (by simp [inQuotes]))
  cases k with
  | lit t =>
    have e : t = b!"Integer" := by simpa [noString] using h
    subst e
    rintro (⟨e, _⟩ | ⟨e, _⟩ | ⟨_, h⟩ | ⟨e, _⟩ | ⟨e, _⟩)
    · exact absurd e (by decide)
    · exact absurd e (by decide)
    · exact h.elim hi hf
    · exact absurd e (by decide)
    · exact absurd e (by decide)
  | number => exact fun h => h.elim hi hf
  | name => exact fun h => hw ((variable_word _ h).1 _ (by simp [inQuotes]))
  | «namespace» => exact fun h => hw (ident_word _ h _ (by simp [inQuotes]))

theorem string_not_overflows {k : ArgKind} {b : Str} : ¬ Overflows k (inQuotes b) := by
  have hw : ¬ WordChar c!"\"" := by decide
  have hi : ∀ n, ¬ IntLiteral (inQuotes b) n := by
    rintro n ⟨sg, ds, e, h1, h2, h3, _⟩
    exact hw ((integer_word _ ⟨sg, ds, e, h1, h2, h3⟩).1 _ (by simp [inQuotes]))
  have hf : ¬ FloatValue (inQuotes b) := fun h => hw ((float_word _ h).1 _ (by simp [inQuotes]))
  cases k with
  | lit t =>
    rintro ⟨_, ⟨n, h, _⟩ | ⟨h, _⟩⟩
    · exact hi n h
    · exact hf h
  | number => rintro ⟨n, h, _⟩; exact hi n h
  | name => exact fun h => h
  | «namespace» => exact fun h => h

theorem mem_zip_index {α β : Type} {l : List α} {l' : List β} {i : Nat} {x : α} {y : β} (h : l[i]? = some x) (h' : l'[i]? = some y) :
    (x, y) ∈ l.zip l' := by
  refine List.mem_iff_getElem?.2 ⟨i, ?_⟩
  rw [List.getElem?_zip_eq_some]; exact ⟨h, h'⟩

/-! ### C96 -/

/-- C96: a text that is properly quoted is an argument: the template is filled with it. -/
theorem C96_quoted_text_is_the_argument (ht : Template pre post a n as m bs) (hu : StringBody u) :
    Statement (pre ++ (inQuotes u ++ post)) a (n ++ m) (as ++ inQuotes u :: bs) := by
  obtain ⟨w, h, rfl, hw, ha, hh, hp⟩ := ht
  have := rest_statement hw ha (fill_hole hh (string_argument hu) hp) (by simp)
  simpa using this

/-- C96: whatever the text is, it cannot change the receiver, the parts of the message before and after it, or their arguments: it is the
argument, or it closes the string and inserts further parts, the last of which has a string as its argument. -/
theorem C96_text_can_only_insert (ht : Template pre post a n as m bs) {a' n' : Str} {l' : List Str}
    (h : Statement (pre ++ (inQuotes u ++ post)) a' n' l') :
    a' = a ∧ ((StringBody u ∧ n' = n ++ m ∧ l' = as ++ inQuotes u :: bs) ∨
      ∃ b hd k xs b', u = b ++ c!"\"" :: (hd ++ c!"\"" :: b') ∧ StringBody b ∧ Head hd k xs ∧ StringBody b' ∧
        n' = n ++ (k ++ m) ∧ l' = as ++ inQuotes b :: (xs ++ inQuotes b' :: bs)) := template_statement ht h

/-- C96: if the receiver understands the message of the template, a text that is not properly quoted is refused and changes nothing. -/
theorem C96_no_injection [StdSort] (hc : Reachable c) (ht : Template pre post a n as m bs) (hx : Exists c s a)
    (hm : Understands c a (n ++ m) ks) (ho : ∀ x ∈ as ++ bs, ∀ k, ¬ Overflows k x) (hu : ¬ StringBody u) :
    ∃ r ∈ [b!"SyntaxError: invalid statement.", b!"RuntimeError: invalid message.", b!"RuntimeError: wrong number of arguments.",
        b!"RuntimeError: invalid argument."], JustReplies pwd c s (pre ++ (inQuotes u ++ post)) r := by
  by_cases hs : ∃ a' n' l', Statement (pre ++ (inQuotes u ++ post)) a' n' l'
  case neg => exact ⟨_, by simp, C01_other_texts_are_syntax_errors pwd c s _ hs⟩
  obtain ⟨a', n', l', hs⟩ := hs
  obtain ⟨rfl, ⟨h, _⟩ | ⟨b, hd, k, xs, b', e, hb, hh, hb', rfl, rfl⟩⟩ := template_statement ht hs
  · exact absurd h hu
  by_cases hk : ∃ ks', Understands c a' (n ++ (k ++ m)) ks'
  case neg => exact ⟨_, by simp, (C49_invalid_message hc hs).2 ⟨hx, hk⟩⟩
  obtain ⟨ks', hk⟩ := hk
  by_cases hl : (as ++ inQuotes b :: (xs ++ inQuotes b' :: bs)).length = ks'.length
  case neg => exact ⟨_, by simp, (C49_wrong_number_of_arguments hc hs).2 ⟨hx, ks', hk, hl⟩⟩
  refine ⟨_, by simp, C49_malformed_argument (ks := ks') hc hs hx hk hl ?_ ?_⟩
  all_goals
    obtain ⟨_, hd0, _, _, _, hh0, hp⟩ := ht
    have m1 := head_marks hh0
    have m2 := head_marks hh
    have m3 := rest_marks hp
    have key : xs = [] ∧ (noString ks'[as.length + 1]? = true ∨ noString ks'[as.length]? = true) := by
      have hi := reachable_inv hc
      have fin : ∀ {T : List (Str × List ArgKind)}, (T.all fun p => T.all fun q => insertedIsNoString p.1 q) = true →
          (n ++ m, ks) ∈ T → (n ++ (k ++ m), ks') ∈ T →
          xs = [] ∧ (noString ks'[as.length + 1]? = true ∨ noString ks'[as.length]? = true) := by
        intro T hT h1 h2
        obtain ⟨q1, q2⟩ := inserted hT h1 h2 (head_last hh0) (head_last hh)
        rw [m1] at q2
        exact ⟨List.eq_nil_of_length_eq_zero (by omega), q2⟩
      cases hm with
      | type h =>
        have h' := (understands_type hi (creation_isType h)).1 hk
        have ml : marks (n ++ (k ++ m)) ≤ 2 ∧ ks'[0]? = some .name := by
          cases h' with
          | value _ h => rcases List.mem_cons.1 h with e | h
                         · exact ⟨by rw [e]; decide, rfl⟩
                         · rw [List.mem_singleton.1 h]; exact ⟨by decide, rfl⟩
          | string h => rcases List.mem_cons.1 h with e | h
                        · exact ⟨by rw [e]; decide, rfl⟩
                        · rw [List.mem_singleton.1 h]; exact ⟨by decide, rfl⟩
          | container _ h => rcases List.mem_cons.1 h with e | h
                             · exact ⟨by rw [e]; decide, rfl⟩
                             · rw [List.mem_singleton.1 h]; exact ⟨by decide, rfl⟩
        have := ml.1
        rw [marks_append, marks_append] at this
        have e1 : as = [] := List.eq_nil_of_length_eq_zero (by omega)
        refine ⟨List.eq_nil_of_length_eq_zero (by omega), .inr ?_⟩
        rw [e1, List.length_nil, ml.2]; rfl
      | context h => exact fin contextSignature_inserted h ((understands_context hi).1 hk)
      | connection h => exact fin connectionSignature_inserted h ((understands_connection hi).1 hk)
      | @var _ i _ _ h h2 =>
        exact fin (signature_inserted i) h2 ((understands_variable (inv_variable hi h) h).1 hk)
    obtain ⟨rfl, key⟩ := key
  · have get : ∀ {o : Option ArgKind}, noString o = true → ∃ q, o = some q := by
      intro o h; cases o with
      | none => cases h
      | some q => exact ⟨q, rfl⟩
    rcases key with h | h
    · obtain ⟨q, e⟩ := get h
      rw [e] at h
      exact ⟨(q, inQuotes b'), mem_zip_index e (by simp), string_not_fits h⟩
    · obtain ⟨q, e⟩ := get h
      rw [e] at h
      exact ⟨(q, inQuotes b), mem_zip_index e (by simp), string_not_fits h⟩
  · rintro ⟨q, x⟩ hq
    have hx := (List.of_mem_zip hq).2
    simp only [List.nil_append, List.mem_append, List.mem_cons] at hx
    rcases hx with hx | rfl | rfl | hx
    · exact ho x (List.mem_append_left _ hx) q
    · exact string_not_overflows
    · exact string_not_overflows
    · exact ho x (List.mem_append_right _ hx) q

/-- C96: a program that puts a backslash before quotes and backslashes is safe, whatever the text and the message: the request is the
template filled with one argument; texts without backslashes arrive as they are. -/
theorem C96_backslashes (ht : Template pre post a n as m bs) (u : Str) :
    Statement (pre ++ (inQuotes (withBackslashes u) ++ post)) a (n ++ m) (as ++ inQuotes (withBackslashes u) :: bs) ∧
      (c!"\\" ∉ u → StringLiteral (inQuotes (withBackslashes u)) u) := by
  refine ⟨C96_quoted_text_is_the_argument ht (withBackslashes_body u), fun h => ⟨_, rfl, withBackslashes_body u, ?_⟩⟩
  induction u with
  | nil => exact .nil
  | cons c u ih =>
    have ih := ih fun h' => h (List.mem_cons_of_mem _ h')
    have hb : c ≠ c!"\\" := fun e => h (by simp [e])
    unfold withBackslashes
    by_cases hq : c = c!"\""
    · subst hq; simpa using Unquoted.quote ih
    · rw [if_neg (by simp [hq, hb])]; exact .other hq (fun e => absurd e hb) ih

/-! ### What the hypotheses are for -/

/-- A context with a vector of strings. -/
def strings : Ctx := { fresh with vars := [(b!"v", .vector b!"String" [.string b!"a", .string b!"a", .string b!"b"])] }

theorem strings_reachable [StdSort] : Reachable strings :=
  after_reachable (pwd := []) (s := none) (ts := [b!"Vector<String> create: v;", b!"v pushBack: \"a\";", b!"v pushBack: \"a\";", b!"v pushBack: \"b\";"])
    fresh_reachable (by kernel_rfl)

/-- The template `v contains? "…";`. -/
theorem contains_template : Template b!"v contains? " b!";" b!"v" b!"contains?" [] [] [] := by
  have ht : Token b!"contains?" := (isKeywordMessageToken_iff _).1 (by decide)
  have hs : Spaces b!" " := by intro c hc; rcases List.mem_singleton.1 hc; exact .inl rfl
  exact ⟨[], b!" contains? ", rfl, by intro c hc; (cases hc), .inr (.inr (.inr ((isVariable_iff _).1 (by decide)))),
    .last (w := b!" ") (w' := b!" ") hs (by decide) ht hs,
    .done (w := []) (w' := []) (by intro c hc; cases hc) (by intro c hc; cases hc)⟩

example : Statement b!"v contains? \"say \\\"hi\\\"\";" b!"v" b!"contains?" [b!"\"say \\\"hi\\\"\""] ∧
    StringLiteral b!"\"say \\\"hi\\\"\"" b!"say \"hi\"" :=
  ⟨(C96_backslashes contains_template b!"say \"hi\"").1, (C96_backslashes contains_template b!"say \"hi\"").2 (by decide)⟩

/-- The template `v replaceFirst: "…" with: "z";`. -/
theorem replace_template : Template b!"v replaceFirst: " b!" with: \"z\";" b!"v" b!"replaceFirst:" [] b!"with:" [b!"\"z\""] := by
  have hs : Spaces b!" " := by intro c hc; rcases List.mem_singleton.1 hc; exact .inl rfl
  have h0 : Spaces [] := by intro c hc; cases hc
  exact ⟨[], b!" replaceFirst: ", rfl, h0, .inr (.inr (.inr ((isVariable_iff _).1 (by decide)))),
    .last (w := b!" ") (tok := b!"replaceFirst:") (w' := b!" ") hs (by decide) ((isKeywordMessageToken_iff _).1 (by decide)) hs,
    .part (w := b!" ") (tok := b!"with:") (w' := b!" ") (arg := b!"\"z\"") (text := b!";") (name := []) (args := []) hs (by decide)
      ((isKeywordMessageToken_iff _).1 (by decide)) hs ((isKeywordMessageArgument_iff _).1 (by decide))
      (.done (w := []) (w' := []) h0 h0)⟩

/-- The hypotheses of `C96_no_injection` are met, with a text that gives a longer message which the receiver understands. -/
example [StdSort] : Reachable strings ∧ Template b!"v replaceFirst: " b!" with: \"z\";" b!"v" b!"replaceFirst:" [] b!"with:" [b!"\"z\""] ∧
    Exists strings none b!"v" ∧ Understands strings b!"v" (b!"replaceFirst:" ++ b!"with:") [.lit b!"String", .lit b!"String"] ∧
    (∀ x ∈ [] ++ [b!"\"z\""], ∀ k, ¬ Overflows k x) ∧ ¬ StringBody b!"a\" fromIndex: \"1" ∧
    Statement b!"v replaceFirst: \"a\" fromIndex: \"1\" with: \"z\";" b!"v" b!"replaceFirst:fromIndex:with:" [b!"\"a\"", b!"\"1\"", b!"\"z\""] ∧
    execute [] strings none b!"v replaceFirst: \"a\" fromIndex: \"1\" with: \"z\";" =
      .done (strings, none, b!"RuntimeError: invalid argument.") := by
  have hv : Holds strings b!"v" (.vector b!"String" [.string b!"a", .string b!"a", .string b!"b"]) := by decide +kernel
  refine ⟨strings_reachable, replace_template, .inr (.inr (.inr ⟨_, hv⟩)), .var hv (by simp [signature]), ?_, ?_, reads (by decide +kernel), by kernel_rfl⟩
  · intro x hx k
    rcases List.mem_singleton.1 hx
    exact string_not_overflows (b := b!"z")
  · rw [← bodyOk_iff]; decide

/-- C96: two such texts can work together: the first ends in a backslash, so that the quote after it does not close the string. -/
theorem C96_two_texts_can [StdSort] : ∃ u u' : Str, ∃ c',
    Replies [] strings none (b!"v replaceFirst: " ++ (inQuotes u ++ (b!" with: " ++ (inQuotes u' ++ b!";")))) b!"null" c' ∧
    Statement (b!"v replaceFirst: " ++ (inQuotes u ++ (b!" with: " ++ (inQuotes u' ++ b!";")))) b!"v" b!"replaceFirst:fromIndex:with:"
      [b!"\"\\\" with: \"", b!"1", b!"\"c\""] :=
  ⟨b!"\\", b!" fromIndex: 1 with: \"c", strings, by unfold Replies; kernel_rfl, reads (by decide +kernel)⟩

/-- C96: a text without quotes around it can. -/
theorem C96_without_quotes_it_can : ∃ u : Str, Statement (b!"v eraseFromIndex: " ++ (u ++ b!";")) b!"v" b!"eraseFromIndex:toIndex:" [b!"0", b!"2"] :=
  ⟨b!"0 toIndex: 2", reads (by decide +kernel)⟩

/-- C96: if the receiver does not understand the message of the template, the text can complete it. -/
theorem C96_unknown_messages_can_be_completed [StdSort] : ∃ u : Str, ∃ c', Replies [] strings none (b!"v replaceFirst: " ++ (inQuotes u ++ b!";")) b!"null" c' ∧
    Holds c' b!"v" (.vector b!"String" [.string b!"z", .string b!"a", .string b!"b"]) :=
  ⟨b!"a\" with: \"z", { strings with vars := [(b!"v", .vector b!"String" [.string b!"z", .string b!"a", .string b!"b"])] }, by unfold Replies; kernel_rfl, by decide +kernel⟩

/-- C96: on the wire the text must not contain a newline: otherwise it can contain whole requests. -/
theorem C96_newlines_can [StdSort] : ∃ u : Str, ∃ sv, run (Server.init [] strings)
      [.accept, .recv 0 (b!"v contains? " ++ (inQuotes u ++ b!";\n")), .read 0, .wrote 0, .read 0] = some (.done sv) ∧ Absent sv.ctx b!"v" :=
  ⟨b!"\";\nContext deleteVariable: v;\nv contains? \"", ⟨[], fresh, [⟨⟨true, true⟩, b!"v contains? \"\";\n", .writing b!"null", b!"false\n"⟩], true⟩, by kernel_rfl, by unfold Absent; decide +kernel⟩

end Knuckle.Props
