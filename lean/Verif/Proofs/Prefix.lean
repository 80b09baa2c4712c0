/-
A statement cannot be continued to another statement.
-/
import Verif.Proofs.Parser

namespace Knuckle

open Spec

/-- White space or a semicolon. -/
def Sep (c : Byte) : Prop := Ws c ∨ c = c!";"

theorem wordChar_not_sep {c : Byte} (h : WordChar c) : ¬ Sep c := by
  rintro (h1 | rfl)
  · exact wordChar_not_ws c h h1
  · revert h; unfold WordChar Letter Digit; decide

theorem argument_sep (p : Str) (c : Byte) (q : Str) (h : Argument (p ++ c :: q)) (hc : Sep c) : ¬ Argument p := by
  rcases hc with hc | rfl
  · exact argument_split p c q h hc
  intro hp
  rcases argument_cases _ h with ⟨hw, -⟩ | ⟨x, e⟩ | hs
  · exact wordChar_not_sep (hw _ (by simp)) (.inr rfl)
  · match p, e, hp with
    | [], e, hp => exact argument_ne_nil [] hp rfl
    | [a], e, hp =>
      injection e with e _
      subst e
      rw [← isKeywordMessageArgument_iff] at hp
      exact absurd hp (by decide)
    | [a, b], e, _ => injection e with _ e; injection e with _ e; injection e with e _; exact absurd e (by decide)
    | _ :: _ :: _ :: p, e, _ => simp at e
  · obtain ⟨b, e, hb⟩ := hs
    match p, e, hp with
    | [], e, hp => exact argument_ne_nil [] hp rfl
    | a :: p, e, hp =>
      injection e with e e2
      subst e
      rcases argument_cases _ hp with ⟨hw, -⟩ | ⟨x, e⟩ | hs
      · exact absurd (hw c!"\"" (by simp)) (by decide)
      · injection e with e _; exact absurd e (by decide)
      · have := stringValue_prefix_free _ (c!";" :: q) hs ⟨b, by simpa using e2, hb⟩
        cases this

/-- Two decompositions at a separator agree, if neither part can be cut at a separator. -/
theorem cut_unique {P : Str → Prop} (hP : ∀ p c q, P (p ++ c :: q) → Sep c → ¬ P p) {a a' R R' : Str} {c c' : Byte} (ha : P a) (ha' : P a')
    (hc : Sep c) (hc' : Sep c') (e : a ++ c :: R = a' ++ c' :: R') : a = a' ∧ c :: R = c' :: R' := by
  rcases List.append_eq_append_iff.1 e with ⟨x, h1, h2⟩ | ⟨x, h1, h2⟩
  · cases x with
    | nil => exact ⟨by simpa using h1.symm, by simpa using h2⟩
    | cons d x =>
      have : c = d := (List.cons.inj h2).1
      subst this
      exact absurd ha (hP a c x (h1 ▸ ha') hc)
  · cases x with
    | nil => exact ⟨by simpa using h1, by simpa using h2.symm⟩
    | cons d x =>
      have : c' = d := (List.cons.inj h2).1
      subst this
      exact absurd ha' (hP a' c' x (h1 ▸ ha) hc')

theorem spaces_unique {w w' : Str} (hw : Spaces w) (hw' : Spaces w') {a b : Byte} {x y : Str} (ha : ¬ Ws a) (hb : ¬ Ws b)
    (e : w ++ a :: x = w' ++ b :: y) : w = w' ∧ a :: x = b :: y := by
  induction w generalizing w' with
  | nil =>
    cases w' with
    | nil => exact ⟨rfl, e⟩
    | cons d w' => exact absurd ((List.cons.inj e).1 ▸ hw' d (by simp)) ha
  | cons c w ih =>
    cases w' with
    | nil => exact absurd ((List.cons.inj e).1 ▸ hw c (by simp)) hb
    | cons d w' =>
      have e1 : c = d := (List.cons.inj e).1
      have e2 : w ++ a :: x = w' ++ b :: y := (List.cons.inj e).2
      obtain ⟨h1, h2⟩ := ih (w' := w') (fun x hx => hw x (by simp [hx])) (fun x hx => hw' x (by simp [hx])) e2
      exact ⟨by rw [h1, e1], h2⟩

theorem noLead_cons {a : Str} (h : NoLead a) (hn : a ≠ []) : ∃ b x, a = b :: x ∧ ¬ Ws b := by
  cases a with
  | nil => exact absurd rfl hn
  | cons b x => exact ⟨b, x, rfl, h b x rfl⟩

/-- The text after a message: spaces, a semicolon, anything. -/
theorem tail_sep {w z : Str} (hw : Spaces w) : ∃ c R, w ++ c!";" :: z = c :: R ∧ Sep c := by
  cases w with
  | nil => exact ⟨_, _, rfl, .inr rfl⟩
  | cons c w => exact ⟨c, _, rfl, .inl (hw c (by simp))⟩

theorem argument_head {a : Str} (h : Argument a) : ∃ b x, a = b :: x ∧ ¬ Ws b ∧ b ≠ c!";" := by
  obtain ⟨b, x, rfl, hb⟩ := noLead_cons (argument_noLead a h) (argument_ne_nil a h)
  refine ⟨b, x, rfl, hb, ?_⟩
  rintro rfl
  rcases argument_cases _ h with ⟨hw, -⟩ | ⟨x, e⟩ | ⟨_, e, _⟩
  · exact wordChar_not_sep (hw _ (by simp)) (.inr rfl)
  · exact absurd (List.cons.inj e).1 (by decide)
  · exact absurd (List.cons.inj e).1 (by decide)

theorem semi_not_ws : ¬ Ws c!";" := by unfold Ws; decide

theorem keyword_head {t n : Str} {a : List Str} (h : KeywordMessage t n a) : ∃ b x, t = b :: x ∧ ¬ Ws b ∧ b ≠ c!";" := by
  have key : ∀ tok r : Str, Token tok → ∃ b x, tok ++ r = b :: x ∧ ¬ Ws b ∧ b ≠ c!";" := by
    rintro tok r ⟨i, hi, h⟩
    obtain ⟨b, x, rfl, hb⟩ := identifier_head i hi
    refine ⟨b, x ++ (tok.drop (x.length + 1)) ++ r, ?_, wordChar_not_ws b (.inl hb), ?_⟩
    · rcases h with rfl | rfl <;> simp
    · rintro rfl; revert hb; unfold Letter; decide
  cases h with
  | one h1 => exact key _ _ h1
  | more h1 => exact key _ _ h1

theorem keyword_unique {m n : Str} {a : List Str} (h : KeywordMessage m n a) : ∀ {m' n' : Str} {a' : List Str} {w w' z z' : Str},
    KeywordMessage m' n' a' → Spaces w → Spaces w' → m ++ (w ++ c!";" :: z) = m' ++ (w' ++ c!";" :: z') → w = w' ∧ z = z' := by
  induction h with
  | @one tok v arg h1 h2 h3 =>
    intro m' n' a' w w' z z' h' hw hw' e
    obtain ⟨b, x, rfl, hb, _⟩ := argument_head h3
    obtain ⟨c, R, eR, hc⟩ := tail_sep (z := z) hw
    cases h' with
    | @one tok' v' arg' h1' h2' h3' =>
      obtain ⟨b', x', rfl, hb', _⟩ := argument_head h3'
      obtain ⟨c', R', eR', hc'⟩ := tail_sep (z := z') hw'
      simp only [List.append_assoc] at e
      have e1 := congrArg (tokenLoop []) e
      rw [tokenLoop_token _ _ h1, tokenLoop_token _ _ h1'] at e1
      have e2 : v ++ (b :: x ++ (w ++ c!";" :: z)) = v' ++ (b' :: x' ++ (w' ++ c!";" :: z')) := by injection e1 with e1; exact (Prod.mk.inj e1).2
      obtain ⟨_, e3⟩ := spaces_unique h2 h2' hb hb' e2
      have e4 : (b :: x) ++ c :: R = (b' :: x') ++ c' :: R' := by rw [← eR, ← eR']; exact e3
      obtain ⟨_, e5⟩ := cut_unique argument_sep h3 h3' hc hc' e4
      rw [← eR, ← eR'] at e5
      obtain ⟨h, e6⟩ := spaces_unique hw hw' semi_not_ws semi_not_ws e5
      exact ⟨h, (List.cons.inj e6).2⟩
    | @more tok' v' arg' c' u' text' name' args' h1' h2' h3' h4' h5' h6' =>
      obtain ⟨b', x', rfl, hb', _⟩ := argument_head h3'
      obtain ⟨d, y, rfl, hd, hd'⟩ := keyword_head h6'
      simp only [List.append_assoc] at e
      have e1 := congrArg (tokenLoop []) e
      rw [tokenLoop_token _ _ h1, tokenLoop_token _ _ h1'] at e1
      have e2 : v ++ (b :: x ++ (w ++ c!";" :: z)) = v' ++ (b' :: x' ++ (c' :: (u' ++ d :: y) ++ (w' ++ c!";" :: z'))) := by
        injection e1 with e1; exact (Prod.mk.inj e1).2
      obtain ⟨_, e3⟩ := spaces_unique h2 h2' hb hb' e2
      have e4 : (b :: x) ++ c :: R = (b' :: x') ++ c' :: ((u' ++ d :: y) ++ (w' ++ c!";" :: z')) := by rw [← eR]; exact e3
      obtain ⟨_, e5⟩ := cut_unique argument_sep h3 h3' hc (.inl h4') e4
      rw [← eR] at e5
      have e6 : w ++ c!";" :: z = (c' :: u') ++ d :: (y ++ (w' ++ c!";" :: z')) := by rw [e5]; simp
      obtain ⟨_, e7⟩ := spaces_unique hw (fun x hx => by
        rcases List.mem_cons.1 hx with rfl | hx
        · exact h4'
        · exact h5' x hx) semi_not_ws hd e6
      exact absurd (List.cons.inj e7).1.symm hd'
  | @more tok v arg c u text name args h1 h2 h3 h4 h5 h6 ih =>
    intro m' n' a' w w' z z' h' hw hw' e
    obtain ⟨b, x, rfl, hb, _⟩ := argument_head h3
    obtain ⟨d, y, hdy, hd, hd'⟩ := keyword_head h6
    cases h' with
    | @one tok' v' arg' h1' h2' h3' =>
      obtain ⟨b', x', rfl, hb', _⟩ := argument_head h3'
      obtain ⟨c', R', eR', hc'⟩ := tail_sep (z := z') hw'
      simp only [List.append_assoc] at e
      have e1 := congrArg (tokenLoop []) e
      rw [tokenLoop_token _ _ h1, tokenLoop_token _ _ h1'] at e1
      have e2 : v ++ (b :: x ++ (c :: (u ++ text) ++ (w ++ c!";" :: z))) = v' ++ (b' :: x' ++ (w' ++ c!";" :: z')) := by
        injection e1 with e1; exact (Prod.mk.inj e1).2
      obtain ⟨_, e3⟩ := spaces_unique h2 h2' hb hb' e2
      have e4 : (b :: x) ++ c :: ((u ++ text) ++ (w ++ c!";" :: z)) = (b' :: x') ++ c' :: R' := by rw [← eR']; exact e3
      obtain ⟨_, e5⟩ := cut_unique argument_sep h3 h3' (.inl h4) hc' e4
      rw [← eR', hdy] at e5
      have e6 : (c :: u) ++ d :: (y ++ (w ++ c!";" :: z)) = w' ++ c!";" :: z' := by rw [← e5]; simp
      obtain ⟨_, e7⟩ := spaces_unique (fun x hx => by
        rcases List.mem_cons.1 hx with rfl | hx
        · exact h4
        · exact h5 x hx) hw' hd semi_not_ws e6
      exact absurd (List.cons.inj e7).1 hd'
    | @more tok' v' arg' c' u' text' name' args' h1' h2' h3' h4' h5' h6' =>
      obtain ⟨b', x', rfl, hb', _⟩ := argument_head h3'
      obtain ⟨d', y', hdy', hd2, hd2'⟩ := keyword_head h6'
      simp only [List.append_assoc] at e
      have e1 := congrArg (tokenLoop []) e
      rw [tokenLoop_token _ _ h1, tokenLoop_token _ _ h1'] at e1
      have e2 : v ++ (b :: x ++ (c :: (u ++ text) ++ (w ++ c!";" :: z))) = v' ++ (b' :: x' ++ (c' :: (u' ++ text') ++ (w' ++ c!";" :: z'))) := by
        injection e1 with e1; exact (Prod.mk.inj e1).2
      obtain ⟨_, e3⟩ := spaces_unique h2 h2' hb hb' e2
      have e4 : (b :: x) ++ c :: ((u ++ text) ++ (w ++ c!";" :: z)) = (b' :: x') ++ c' :: ((u' ++ text') ++ (w' ++ c!";" :: z')) := e3
      obtain ⟨_, e5⟩ := cut_unique argument_sep h3 h3' (.inl h4) (.inl h4') e4
      have e6 : (c :: u) ++ d :: (y ++ (w ++ c!";" :: z)) = (c' :: u') ++ d' :: (y' ++ (w' ++ c!";" :: z')) := by
        rw [hdy, hdy'] at e5; simpa using e5
      obtain ⟨_, e7⟩ := spaces_unique (fun x hx => by
        rcases List.mem_cons.1 hx with rfl | hx
        · exact h4
        · exact h5 x hx) (fun x hx => by
        rcases List.mem_cons.1 hx with rfl | hx
        · exact h4'
        · exact h5' x hx) hd hd2 e6
      refine ih h6' hw hw' ?_
      rw [hdy, hdy']; exact e7

theorem unary_char {m : Str} (h : UnaryMessage m) : ∀ c ∈ m, ¬ Sep c := by
  have key : ∀ i : Str, Identifier i → ∀ c ∈ i, ¬ Sep c := fun i hi c hc => wordChar_not_sep (ident_word i hi c hc)
  rcases h with h | ⟨i, rfl, h⟩
  · exact key m h
  · intro c hc
    rcases List.mem_append.1 hc with hc | hc
    · exact key i h c hc
    · rw [List.mem_singleton.1 hc]; unfold Sep Ws; decide

theorem token_char {m : Str} (h : Token m) : ∀ c ∈ m, ¬ Sep c := by
  obtain ⟨i, hi, h⟩ := h
  intro c hc
  have key : ∀ c ∈ i, ¬ Sep c := fun c hc => wordChar_not_sep (ident_word i hi c hc)
  rcases h with rfl | rfl <;> rcases List.mem_append.1 hc with hc | hc
  · exact key c hc
  · rw [List.mem_singleton.1 hc]; unfold Sep Ws; decide
  · exact key c hc
  · rw [List.mem_singleton.1 hc]; unfold Sep Ws; decide

theorem unary_keyword {m m' n' : Str} {a' : List Str} (h : UnaryMessage m) (h' : KeywordMessage m' n' a') {w w' z z' : Str} (hw : Spaces w)
    (e : m ++ (w ++ c!";" :: z) = m' ++ (w' ++ c!";" :: z')) : False := by
  obtain ⟨tok, v, arg, r, h1, h2, h3, rfl⟩ : ∃ tok v arg r, Token tok ∧ Spaces v ∧ Argument arg ∧ m' = tok ++ (v ++ (arg ++ r)) := by
    cases h' with
    | @one _ v arg h1 h2 h3 => exact ⟨_, v, arg, [], h1, h2, h3, by simp⟩
    | @more tok v arg c u text name args h1 h2 h3 h4 h5 h6 => exact ⟨tok, v, arg, _, h1, h2, h3, rfl⟩
  obtain ⟨c, R, eR, hc⟩ := tail_sep (z := z) hw
  rw [List.append_assoc] at e
  rcases List.append_eq_append_iff.1 e with ⟨x, e1, e2⟩ | ⟨x, e1, e2⟩
  · cases x with
    | nil =>
      rw [List.nil_append] at e2
      obtain ⟨b, y, rfl, hb, hb'⟩ := argument_head h3
      have e3 : w ++ c!";" :: z = v ++ b :: (y ++ (r ++ (w' ++ c!";" :: z'))) := by rw [e2]; simp
      obtain ⟨_, e4⟩ := spaces_unique hw h2 semi_not_ws hb e3
      exact hb' (List.cons.inj e4).1.symm
    | cons d x =>
      rw [eR] at e2
      obtain ⟨rfl, _⟩ := List.cons.inj e2
      exact token_char h1 c (by rw [e1]; simp) hc
  · obtain ⟨i, hi, ht⟩ := h1
    have hq := ident_no_colon i hi
    rcases h with h | ⟨j, e3, h⟩
    · have := ident_no_colon m h
      rw [e1] at this
      rcases ht with rfl | rfl
      · exact this.1 (by simp)
      · exact this.2 (by simp)
    · have hj := ident_no_colon j h
      cases x with
      | nil =>
        rw [List.nil_append] at e2
        obtain ⟨b, y, rfl, hb, hb'⟩ := argument_head h3
        have e3 : w ++ c!";" :: z = v ++ b :: (y ++ (r ++ (w' ++ c!";" :: z'))) := by rw [← e2]; simp
        obtain ⟨_, e4⟩ := spaces_unique hw h2 semi_not_ws hb e3
        exact hb' (List.cons.inj e4).1.symm
      | cons d x =>
        rw [e1] at e3
        have : tok ++ (d :: x).dropLast = j := by
          have := congrArg List.dropLast e3
          rw [List.dropLast_concat, List.dropLast_append_of_ne_nil (by simp)] at this
          exact this
        rw [← this] at hj
        rcases ht with rfl | rfl
        · exact hj.1 (by simp)
        · exact hj.2 (by simp)

theorem message_unique {m n m' n' : Str} {a a' : List Str} {w w' z z' : Str} (h : Message m n a) (h' : Message m' n' a')
    (hw : Spaces w) (hw' : Spaces w') (e : m ++ (w ++ c!";" :: z) = m' ++ (w' ++ c!";" :: z')) : z = z' := by
  rcases h with ⟨h, _⟩ | h <;> rcases h' with ⟨h', _⟩ | h'
  · obtain ⟨c, R, eR, hc⟩ := tail_sep (z := z) hw
    obtain ⟨c', R', eR', hc'⟩ := tail_sep (z := z') hw'
    rw [eR, eR'] at e
    obtain ⟨_, e2⟩ := cut_unique (P := fun m => ∀ c ∈ m, ¬ Sep c) (fun p c q h hc _ => h c (by simp) hc) (unary_char h) (unary_char h') hc hc' e
    rw [← eR, ← eR'] at e2
    obtain ⟨_, e3⟩ := spaces_unique hw hw' semi_not_ws semi_not_ws e2
    exact (List.cons.inj e3).2
  · exact (unary_keyword h h' hw e).elim
  · exact (unary_keyword h' h hw' e.symm).elim
  · exact (keyword_unique h h' hw hw' e).2

/-- After a statement only white space can be added. -/
theorem statement_end {A Y a n a' n' : Str} {l l' : List Str} (h : Statement A a n l) (h' : Statement (A ++ Y) a' n' l') : Spaces Y := by
  obtain ⟨w₁, c, w₂, msg, w₃, w₄, rfl, h1, h2, h3, h4, h5, h6, h7⟩ := h
  obtain ⟨v₁, d, v₂, msg', v₃, v₄, e, k1, k2, k3, k4, k5, k6, k7⟩ := h'
  obtain ⟨b, x, ea, hb⟩ := noLead_cons (actor_noLead a h2) (actor_ne_nil a h2)
  obtain ⟨b', x', ea', hb'⟩ := noLead_cons (actor_noLead a' k2) (actor_ne_nil a' k2)
  have e1 : w₁ ++ b :: (x ++ c :: (w₂ ++ (msg ++ (w₃ ++ c!";" :: (w₄ ++ Y))))) = v₁ ++ b' :: (x' ++ d :: (v₂ ++ (msg' ++ (v₃ ++ c!";" :: v₄)))) := by
    rw [ea, ea'] at e; simpa using e
  obtain ⟨_, e2⟩ := spaces_unique h1 k1 hb hb' e1
  have e3 : a ++ c :: (w₂ ++ (msg ++ (w₃ ++ c!";" :: (w₄ ++ Y)))) = a' ++ d :: (v₂ ++ (msg' ++ (v₃ ++ c!";" :: v₄))) := by
    rw [ea, ea']; exact e2
  have e4 : c :: (w₂ ++ (msg ++ (w₃ ++ c!";" :: (w₄ ++ Y)))) = d :: (v₂ ++ (msg' ++ (v₃ ++ c!";" :: v₄))) := by
    rcases List.append_eq_append_iff.1 e3 with ⟨y, f1, f2⟩ | ⟨y, f1, f2⟩
    · cases y with
      | nil => exact f2
      | cons g y =>
        obtain ⟨rfl, _⟩ := List.cons.inj f2
        exact absurd h2 (actor_split a c y (f1 ▸ k2) h3)
    · cases y with
      | nil => exact f2.symm
      | cons g y =>
        obtain ⟨rfl, _⟩ := List.cons.inj f2
        exact absurd k2 (actor_split a' d y (f1 ▸ h2) k3)
  obtain ⟨g, y, em, hg⟩ := noLead_cons (message_noLead _ _ _ h5) (message_ne_nil _ _ _ h5)
  obtain ⟨g', y', em', hg'⟩ := noLead_cons (message_noLead _ _ _ k5) (message_ne_nil _ _ _ k5)
  have sp : ∀ {c w}, Ws c → Spaces w → Spaces (c :: w) := fun h h' x hx => by
    rcases List.mem_cons.1 hx with rfl | hx
    · exact h
    · exact h' x hx
  have e5 : (c :: w₂) ++ g :: (y ++ (w₃ ++ c!";" :: (w₄ ++ Y))) = (d :: v₂) ++ g' :: (y' ++ (v₃ ++ c!";" :: v₄)) := by
    rw [em, em'] at e4; simpa using e4
  obtain ⟨_, e6⟩ := spaces_unique (sp h3 h4) (sp k3 k4) hg hg' e5
  have e7 : msg ++ (w₃ ++ c!";" :: (w₄ ++ Y)) = msg' ++ (v₃ ++ c!";" :: v₄) := by rw [em, em']; exact e6
  have e8 := message_unique h5 k5 h6 k6 e7
  intro x hx
  exact k7 x (by rw [← e8]; simp [hx])

end Knuckle
