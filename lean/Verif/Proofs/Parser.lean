/-
`Parser` reads a statement exactly as the documented grammar does.
-/
import Verif.Model.Parser
import Verif.Proofs.Grammar

namespace Knuckle

open Spec

theorem statementLoop_actor (suf : Str) (c : Byte) (rest : Str) (hc : Ws c) : ∀ pre,
    isActor (pre ++ suf) = true → (∀ p d q, pre ++ suf = p ++ d :: q → Ws d → isActor p = false) →
    statementLoop pre (suf ++ c :: rest) = (isUnaryMessage (ltrim rest) || isKeywordMessage (ltrim rest)) := by
  induction suf with
  | nil =>
    intro pre h _
    rw [List.append_nil] at h
    simp [statementLoop, (isSpace_iff c).2 hc, h]
  | cons x xs ih =>
    intro pre h hno
    have hx : (isSpace x && isActor pre) = false := by
      by_cases hs : Ws x
      · simp [hno pre x xs rfl hs]
      · simp [(isSpace_false_iff x).2 hs]
    rw [List.cons_append]
    simp only [statementLoop, hx, Bool.false_eq_true, if_false]
    exact ih (pre ++ [x]) (by simpa using h) (fun p d q e => hno p d q (by rw [← e]; simp))

theorem actorLoop_actor (suf : Str) (c : Byte) (rest : Str) (hc : Ws c) : ∀ pre,
    isActor (pre ++ suf) = true → (∀ p d q, pre ++ suf = p ++ d :: q → Ws d → isActor p = false) →
    actorLoop pre (suf ++ c :: rest) = .ok (pre ++ suf, rest) := by
  induction suf with
  | nil =>
    intro pre h _
    rw [List.append_nil] at h
    simp [actorLoop, (isSpace_iff c).2 hc, h]
  | cons x xs ih =>
    intro pre h hno
    have hx : (!isSpace x || !isActor pre) = true := by
      by_cases hs : Ws x
      · simp [hno pre x xs rfl hs]
      · simp [(isSpace_false_iff x).2 hs]
    rw [List.cons_append]
    simp only [actorLoop, hx, if_true]
    rw [ih (pre ++ [x]) (by simpa using h) (fun p d q e => hno p d q (by rw [← e]; simp))]
    simp

theorem argLoop_mid (suf : Str) (c : Byte) (rest : Str) (hc : Ws c) : ∀ pre,
    isKeywordMessageArgument (pre ++ suf) = true →
    (∀ p d q, pre ++ suf = p ++ d :: q → Ws d → isKeywordMessageArgument p = false) →
    argLoop pre (suf ++ c :: rest) = (pre ++ suf, c :: rest) := by
  induction suf with
  | nil =>
    intro pre h _
    rw [List.append_nil] at h
    simp [argLoop, (isSpace_iff c).2 hc, h]
  | cons x xs ih =>
    intro pre h hno
    have hx : (!isSpace x || !isKeywordMessageArgument pre) = true := by
      by_cases hs : Ws x
      · simp [hno pre x xs rfl hs]
      · simp [(isSpace_false_iff x).2 hs]
    rw [List.cons_append]
    simp only [argLoop, hx, if_true]
    rw [ih (pre ++ [x]) (by simpa using h) (fun p d q e => hno p d q (by rw [← e]; simp))]
    simp

theorem argLoop_end (suf : Str) : ∀ pre,
    (∀ p d q, pre ++ suf = p ++ d :: q → Ws d → isKeywordMessageArgument p = false) →
    argLoop pre suf = (pre ++ suf, []) := by
  induction suf with
  | nil => intro pre _; simp [argLoop]
  | cons x xs ih =>
    intro pre hno
    have hx : (!isSpace x || !isKeywordMessageArgument pre) = true := by
      by_cases hs : Ws x
      · simp [hno pre x xs rfl hs]
      · simp [(isSpace_false_iff x).2 hs]
    simp only [argLoop, hx, if_true]
    rw [ih (pre ++ [x]) (fun p d q e => hno p d q (by rw [← e]; simp))]
    simp

theorem tokenLoop_token (tok rest : Str) (h : Token tok) : tokenLoop [] (tok ++ rest) = .ok (tok, rest) := by
  have key : ∀ (i : Str) (z : Byte), c!":" ∉ i → c!"?" ∉ i → (z = c!":" ∨ z = c!"?") → ∀ pre,
      tokenLoop pre (i ++ z :: rest) = .ok (pre ++ (i ++ [z]), rest) := by
    intro i z h1 h2 hz
    induction i with
    | nil => intro pre; rcases hz with rfl | rfl <;> simp [tokenLoop]
    | cons c cs ih =>
      intro pre
      have hc1 : c ≠ c!":" := fun e => h1 (by simp [e])
      have hc2 : c ≠ c!"?" := fun e => h2 (by simp [e])
      rw [List.cons_append]
      have : (c != c!":" && c != c!"?") = true := by simp [hc1, hc2]
      simp only [tokenLoop, this, if_true]
      rw [ih (fun hm => h1 (by simp [hm])) (fun hm => h2 (by simp [hm]))]
      simp
  obtain ⟨i, hi, htok⟩ := h
  obtain ⟨h1, h2⟩ := ident_no_colon i hi
  rcases htok with rfl | rfl
  · rw [List.append_assoc]; exact key i _ h1 h2 (.inl rfl) []
  · rw [List.append_assoc]; exact key i _ h1 h2 (.inr rfl) []

theorem argument_no_split (arg : Str) (h : Argument arg) :
    ∀ p d q, [] ++ arg = p ++ d :: q → Ws d → isKeywordMessageArgument p = false := by
  intro p d q e hd
  rw [List.nil_append] at e
  rw [Bool.eq_false_iff]
  intro hp
  exact argument_split p d q (e ▸ h) hd ((isKeywordMessageArgument_iff p).1 hp)

theorem partsLoop_keyword (t n : Str) (a : List Str) (h : KeywordMessage t n a) :
    ∀ fuel name args, t.length ≤ fuel → partsLoop fuel t name args = .ok (name ++ n, args ++ a) := by
  induction h with
  | @one tok w arg ht hw ha =>
    intro fuel name args hf
    have hne : tok ++ (w ++ arg) ≠ [] := by simp [token_ne_nil tok ht]
    have hl := List.length_pos_iff.2 hne
    cases hs : tok ++ (w ++ arg) with
    | nil => exact absurd hs hne
    | cons c cs =>
      cases fuel with
      | zero => omega
      | succ fuel =>
        simp only [partsLoop]
        rw [← hs, tokenLoop_token tok _ ht]
        simp only [Res.bind_ok]
        rw [ltrim_spaces_append _ _ hw, ltrim_of_noLead _ (argument_noLead arg ha),
          argLoop_end arg [] (argument_no_split arg ha)]
        simp [ltrim, partsLoop]
  | @more tok w arg c w' text name' args' ht hw ha hc hw' hk ih =>
    intro fuel name args hf
    have hne : tok ++ (w ++ (arg ++ (c :: (w' ++ text)))) ≠ [] := by simp
    cases hs : tok ++ (w ++ (arg ++ (c :: (w' ++ text)))) with
    | nil => exact absurd hs hne
    | cons d ds =>
      cases fuel with
      | zero => simp at hf
      | succ fuel =>
        simp only [partsLoop]
        rw [← hs, tokenLoop_token tok _ ht]
        simp only [Res.bind_ok]
        have hlead : NoLead (arg ++ c :: (w' ++ text)) :=
          (noLead_append _ _ (argument_ne_nil arg ha)).2 (argument_noLead arg ha)
        rw [ltrim_spaces_append _ _ hw, ltrim_of_noLead _ hlead,
          argLoop_mid arg c _ hc [] (by simpa using (isKeywordMessageArgument_iff arg).2 ha) (argument_no_split arg ha)]
        have e : c :: (w' ++ text) = (c :: w') ++ text := rfl
        have hcw : Spaces (c :: w') := by
          intro x hx
          rcases List.mem_cons.1 hx with rfl | hx
          · exact hc
          · exact hw' x hx
        simp only [List.nil_append]
        rw [e, ltrim_spaces_append _ _ hcw, ltrim_of_noLead _ (keyword_noLead _ _ _ hk)]
        rw [ih fuel (name ++ tok) (args ++ [arg]) ?_]
        · simp
        · have := token_ne_nil tok ht
          have := List.length_pos_iff.2 this
          simp at hf; omega

theorem message_noLead (t n : Str) (a : List Str) (h : Message t n a) : NoLead t := by
  rcases h with ⟨h | ⟨i, rfl, hi⟩, -, -⟩ | h
  · exact word_noLead t (ident_word t h)
  · rw [noLead_append _ _ (identifier_ne_nil i hi)]; exact word_noLead i (ident_word i hi)
  · exact keyword_noLead t n a h

theorem message_ne_nil (t n : Str) (a : List Str) (h : Message t n a) : t ≠ [] := by
  rcases h with ⟨h | ⟨i, rfl, hi⟩, -, -⟩ | h
  · exact identifier_ne_nil t h
  · simp
  · exact keyword_ne_nil t n a h

theorem message_noTrail (t n : Str) (a : List Str) (h : Message t n a) : NoTrail t := by
  rcases h with ⟨h | ⟨i, rfl, hi⟩, -, -⟩ | h
  · exact word_noTrail t (ident_word t h)
  · rw [noTrail_append _ _ (by simp)]
    intro c cs e
    have := (List.append_inj' (s₁ := []) (t₁ := [c!"?"]) (s₂ := cs) (t₂ := [c]) (by simpa using e) rfl).2
    simp at this; subst this; unfold Ws; decide
  · exact keyword_noTrail t n a h

/-- The trimming done by `is_statement` and `Parser` on a statement. -/
theorem statement_trim (w₁ core w₃ w₄ : Str) (h1 : Spaces w₁) (h3 : Spaces w₃) (h4 : Spaces w₄)
    (hl : NoLead core) (ht : NoTrail core) (hne : core ≠ []) :
    let t := trim (w₁ ++ (core ++ (w₃ ++ (b!";" ++ w₄))))
    t.length ≠ 0 ∧ t.getD (t.length - 1) 0 = c!";" ∧ rtrim (t.take (t.length - 1)) = core := by
  have e : w₁ ++ (core ++ (w₃ ++ (b!";" ++ w₄))) = w₁ ++ (((core ++ w₃) ++ [c!";"]) ++ w₄) := by simp
  have ht' : trim (w₁ ++ (core ++ (w₃ ++ (b!";" ++ w₄)))) = (core ++ w₃) ++ [c!";"] := by
    rw [e]
    refine trim_eq w₁ _ w₄ h1 h4 ?_ ?_ (by simp)
    · rw [List.append_assoc, noLead_append _ _ hne]; exact hl
    · rw [noTrail_append _ _ (by simp)]
      intro c cs e
      have := (List.append_inj' (s₁ := []) (t₁ := [c!";"]) (s₂ := cs) (t₂ := [c]) (by simpa using e) rfl).2
      simp at this; subst this; unfold Ws; decide
  simp only [ht']
  refine ⟨by simp, getD_last _ _, ?_⟩
  rw [take_last, rtrim_append_spaces _ _ h3, rtrim_of_noTrail _ ht]

theorem actor_no_split (actor : Str) (h : Actor actor) :
    ∀ p d q, [] ++ actor = p ++ d :: q → Ws d → isActor p = false := by
  intro p d q e hd
  rw [List.nil_append] at e
  rw [Bool.eq_false_iff]
  intro hp
  exact actor_split p d q (e ▸ h) hd ((isActor_iff p).1 hp)

theorem statement_core (actor name : Str) (args : List Str) (c : Byte) (w₂ msg : Str)
    (hA : Actor actor) (hc : Ws c) (h2 : Spaces w₂) (hm : Message msg name args) :
    NoLead (actor ++ (c :: (w₂ ++ msg))) ∧ NoTrail (actor ++ (c :: (w₂ ++ msg))) ∧ actor ++ (c :: (w₂ ++ msg)) ≠ [] := by
  refine ⟨(noLead_append _ _ (actor_ne_nil actor hA)).2 (actor_noLead actor hA), ?_, by simp⟩
  have e : actor ++ (c :: (w₂ ++ msg)) = (actor ++ (c :: w₂)) ++ msg := by simp
  rw [e, noTrail_append _ _ (message_ne_nil _ _ _ hm)]
  exact message_noTrail _ _ _ hm

/-- Every derivation of the grammar is found by the parser. -/
theorem parse_complete (text actor name : Str) (args : List Str) (h : Statement text actor name args) :
    parse text = .ok ⟨actor, name, args⟩ := by
  obtain ⟨w₁, c, w₂, msg, w₃, w₄, rfl, h1, hA, hc, h2, hm, h3, h4⟩ := h
  obtain ⟨hl, ht, hne⟩ := statement_core actor name args c w₂ msg hA hc h2 hm
  have e : w₁ ++ (actor ++ (c :: (w₂ ++ (msg ++ (w₃ ++ (b!";" ++ w₄)))))) =
      w₁ ++ ((actor ++ (c :: (w₂ ++ msg))) ++ (w₃ ++ (b!";" ++ w₄))) := by simp
  rw [e]
  obtain ⟨t1, t2, t3⟩ := statement_trim w₁ (actor ++ (c :: (w₂ ++ msg))) w₃ w₄ h1 h3 h4 hl ht hne
  have hA' : isActor ([] ++ actor) = true := by simpa using (isActor_iff actor).2 hA
  have hlm : ltrim (w₂ ++ msg) = msg := by
    rw [ltrim_spaces_append _ _ h2, ltrim_of_noLead _ (message_noLead _ _ _ hm)]
  have hst : isStatement (w₁ ++ ((actor ++ (c :: (w₂ ++ msg))) ++ (w₃ ++ (b!";" ++ w₄)))) = true := by
    unfold isStatement
    simp only [beq_iff_eq, t1, t2, t3, decide_false, bne_self_eq_false, Bool.or_false, Bool.false_eq_true, if_false,
      Bool.or_eq_true, or_self]
    rw [statementLoop_actor actor c (w₂ ++ msg) hc [] hA' (actor_no_split actor hA), hlm]
    rcases hm with ⟨hu, -, -⟩ | hk
    · simp [(isUnaryMessage_iff msg).2 hu]
    · simp [(isKeywordMessage_iff msg).2 ⟨name, args, hk⟩]
  unfold parse
  simp only [hst, Bool.not_true, Bool.false_eq_true, if_false]
  rw [t3, actorLoop_actor actor c (w₂ ++ msg) hc [] hA' (actor_no_split actor hA)]
  simp only [Res.bind_ok, List.nil_append]
  rw [hlm]
  rcases hm with ⟨hu, rfl, rfl⟩ | hk
  · simp [(isUnaryMessage_iff _).2 hu]
  · have : isUnaryMessage msg = false := by
      rw [Bool.eq_false_iff]; intro hu; exact keyword_not_unary _ _ _ hk ((isUnaryMessage_iff _).1 hu)
    simp only [this, Bool.false_eq_true, if_false]
    rw [partsLoop_keyword _ _ _ hk _ _ _ (Nat.le_refl _)]
    simp

theorem statementLoop_sound (s : Str) : ∀ pre, statementLoop pre s = true →
    ∃ suf c rest, s = suf ++ c :: rest ∧ Ws c ∧ isActor (pre ++ suf) = true ∧
      (isUnaryMessage (ltrim rest) || isKeywordMessage (ltrim rest)) = true := by
  induction s with
  | nil => intro pre h; simp [statementLoop] at h
  | cons c cs ih =>
    intro pre h
    by_cases hc : (isSpace c && isActor pre) = true
    · simp only [statementLoop, hc, if_true] at h
      simp only [Bool.and_eq_true] at hc
      exact ⟨[], c, cs, rfl, (isSpace_iff c).1 hc.1, by simpa using hc.2, h⟩
    · simp only [statementLoop, hc, if_false] at h
      obtain ⟨suf, d, rest, rfl, hd, hA, hm⟩ := ih _ h
      exact ⟨c :: suf, d, rest, rfl, hd, by simpa using hA, hm⟩

/-- The recognizer accepts only derivable texts. -/
theorem isStatement_sound (text : Str) (h : isStatement text = true) : ∃ a n l, Statement text a n l := by
  unfold isStatement at h
  simp only at h
  split at h
  · cases h
  · rename_i hh
    simp only [Bool.or_eq_true, beq_iff_eq, bne_iff_ne, not_or, Decidable.not_not] at hh
    obtain ⟨hlen, hlast⟩ := hh
    obtain ⟨w₁, w₄, h1, h4, e⟩ := trim_spec text
    have hne : trim text ≠ [] := by intro hn; rw [hn] at hlen; exact hlen rfl
    obtain ⟨core', z, et⟩ := List.eq_nil_or_concat (trim text) |>.resolve_left hne
    rw [List.concat_eq_append] at et
    rw [et, getD_last] at hlast
    subst hlast
    rw [et, take_last] at h
    obtain ⟨w₃, h3, e3⟩ := rtrim_spec core'
    obtain ⟨actor, c, rest, es, hc, hA, hm⟩ := statementLoop_sound _ _ h
    rw [List.nil_append] at hA
    obtain ⟨w₂, h2, e2⟩ := ltrim_spec rest
    have hmsg : ∃ n l, Message (ltrim rest) n l := by
      simp only [Bool.or_eq_true] at hm
      rcases hm with hm | hm
      · exact ⟨_, _, .inl ⟨(isUnaryMessage_iff _).1 hm, rfl, rfl⟩⟩
      · obtain ⟨n, l, hk⟩ := (isKeywordMessage_iff _).1 hm
        exact ⟨n, l, .inr hk⟩
    obtain ⟨n, l, hmsg⟩ := hmsg
    refine ⟨actor, n, l, w₁, c, w₂, ltrim rest, w₃, w₄, ?_, h1, (isActor_iff actor).1 hA, hc, h2, hmsg, h3, h4⟩
    rw [e, et, e3, es]
    conv => lhs; rw [e2]
    simp

theorem isStatement_iff (text : Str) : isStatement text = true ↔ ∃ a n l, Statement text a n l := by
  refine ⟨isStatement_sound text, ?_⟩
  rintro ⟨a, n, l, h⟩
  have := parse_complete text a n l h
  unfold parse at this
  split at this
  · cases this
  · rename_i hh; simpa using hh

/-- Parsing has no undefined behaviour, throws only the syntax error, and returns exactly the derivation. -/
theorem parse_iff (text : Str) (p : Parsed) : parse text = .ok p ↔ Statement text p.actor p.name p.args := by
  constructor
  · intro h
    have hst : isStatement text = true := by
      unfold parse at h
      split at h
      · cases h
      · rename_i hh; simpa using hh
    obtain ⟨a, n, l, hs⟩ := isStatement_sound text hst
    have := parse_complete text a n l hs
    rw [h] at this
    injection this with this
    subst this
    exact hs
  · intro h; exact parse_complete _ _ _ _ h

theorem parse_cases (text : Str) : (∃ p, parse text = .ok p) ∨ parse text = .err .invalidStatement := by
  by_cases h : isStatement text = true
  · obtain ⟨a, n, l, hs⟩ := isStatement_sound text h
    exact .inl ⟨_, parse_complete text a n l hs⟩
  · right; unfold parse; simp [h]

end Knuckle
