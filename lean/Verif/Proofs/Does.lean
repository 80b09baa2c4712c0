/-
Everything a request can do, in one case distinction.
-/
import Verif.Proofs.Answers

namespace Knuckle

open Spec

/-- What the connection does with a message. -/
inductive SessDoes (pwd : Str) (s : Session) : Str → List Str → Run Session → Prop
  | close {args} : SessDoes pwd s b!"close" args (.ret { s with connected := false } b!"null")
  | auth {a} : StringLiteral a pwd → SessDoes pwd s b!"authenticateWithPassword:" [a] (.ret { s with authed := true } b!"null")
  | wrong {a v} : StringLiteral a v → v ≠ pwd → SessDoes pwd s b!"authenticateWithPassword:" [a] (.thr s .wrongPassword)
  | invalid {a} : ¬ StringValue a → SessDoes pwd s b!"authenticateWithPassword:" [a] (.thr s .invalidArgument)
  | wrongNumber {args} : args.length ≠ 1 → SessDoes pwd s b!"authenticateWithPassword:" args (.thr s .wrongNumberOfArguments)
  | noMessage {name args} : name ≠ b!"close" → name ≠ b!"authenticateWithPassword:" →
      SessDoes pwd s name args (.thr s .invalidMessage)

theorem session_does (pwd : Str) (s : Session) (name : Str) (args : List Str) :
    SessDoes pwd s name args (s.receive pwd name args) := by
  unfold Session.receive
  by_cases h1 : name = b!"close"
  · subst h1; exact .close
  rw [beq_false_of_ne h1]
  by_cases h2 : name = b!"authenticateWithPassword:"
  · subst h2
    simp only [Bool.false_eq_true, if_false, beq_self_eq_true, if_true]
    match args with
    | [] => exact .wrongNumber (by simp)
    | _ :: _ :: _ => exact .wrongNumber (by simp)
    | [a] =>
      simp only [op1]
      rcases stringLit_cases a with ⟨v, h1, hl⟩ | ⟨h1, hn⟩ <;> rw [h1]
      · have : isStringValue a = true := (isStringValue_iff a).2 (by obtain ⟨b, e, hb, _⟩ := hl; exact ⟨b, e, hb⟩)
        rw [this]
        simp only [Bool.not_true, Bool.false_eq_true, if_false, Res.bind_ok]
        by_cases hv : v = pwd
        · subst hv; simp only [beq_self_eq_true, if_true]; exact .auth hl
        · rw [beq_false_of_ne hv]; exact .wrong hl hv
      · have : isStringValue a = false := by rw [Bool.eq_false_iff]; exact fun e => hn ((isStringValue_iff a).1 e)
        rw [this]; exact .invalid hn
  · rw [beq_false_of_ne h2]; exact .noMessage h1 h2

/-- Everything a request can do, apart from the log record. -/
inductive Does (pwd : Str) (c : Ctx) (s : Option Session) (text : Str) : Run (Ctx × Option Session) → Prop
  | syntaxError : (¬ ∃ a n l, Statement text a n l) → Does pwd c s text (.thr (c, s) .invalidStatement)
  | typeNoMessage {a n l} : Statement text a n l → IsType a → (¬ ∃ ks, Creation a n ks) → Does pwd c s text (.thr (c, s) .invalidMessage)
  | typeWrongNumber {a n l ks} : Statement text a n l → IsType a → Creation a n ks → l.length ≠ ks.length →
      Does pwd c s text (.thr (c, s) .wrongNumberOfArguments)
  | typeInvalid {a n l ks} : Statement text a n l → IsType a → Creation a n ks → l.length = ks.length →
      (∃ q ∈ ks.zip l, ¬ Fits q.1 q.2) → Does pwd c s text (.thr (c, s) .invalidArgument)
  | typeUndefined {a n l ks} : Statement text a n l → IsType a → Creation a n ks → l.length = ks.length →
      (∃ q ∈ ks.zip l, Overflows q.1 q.2) → Does pwd c s text .ub
  | created {a n l v i} : Statement text a n l → IsType a → Creates a n l v i → c.vars.lookup v = none →
      Does pwd c s text (.ret ({ c with vars := mapInsert strLt v i c.vars }, s) b!"null")
  | kept {a n l v i j} : Statement text a n l → IsType a → Creates a n l v i → c.vars.lookup v = some j →
      startsWith n b!"createIfNotExists:" = true → Does pwd c s text (.ret (c, s) b!"null")
  | used {a n l v i j} : Statement text a n l → IsType a → Creates a n l v i → c.vars.lookup v = some j →
      startsWith n b!"createIfNotExists:" = false → Does pwd c s text (.thr (c, s) .nameAlreadyUsed)
  | context {n l r} : Statement text b!"Context" n l → CtxDoes c n l r → Does pwd c s text (onCtx s r)
  | absent {a n l} : Statement text a n l → Variable a → c.vars.lookup a = none →
      Does pwd c s text (.thr (c, s) .unexistentVariable)
  | varNoMessage {a n l i} : Statement text a n l → Variable a → c.vars.lookup a = some i → (∀ p ∈ signature i, p.1 ≠ n) →
      Does pwd c s text (.thr (c, s) .invalidMessage)
  | varWrongNumber {a n l i ks} : Statement text a n l → Variable a → c.vars.lookup a = some i → (n, ks) ∈ signature i →
      l.length ≠ ks.length → Does pwd c s text (.thr (c, s) .wrongNumberOfArguments)
  | varInvalid {a n l i ks} : Statement text a n l → Variable a → c.vars.lookup a = some i → (n, ks) ∈ signature i →
      l.length = ks.length → (∃ q ∈ ks.zip l, ¬ Fits q.1 q.2) → Does pwd c s text (.thr (c, s) .invalidArgument)
  | varUndefined {a n l i ks} : Statement text a n l → Variable a → c.vars.lookup a = some i → (n, ks) ∈ signature i →
      l.length = ks.length → (∃ q ∈ ks.zip l, Overflows q.1 q.2) → Does pwd c s text .ub
  | varGives {a n l i ks i' r} : Statement text a n l → Variable a → c.vars.lookup a = some i → (n, ks) ∈ signature i →
      l.length = ks.length → (∀ q ∈ ks.zip l, Good q.1 q.2) → Behaves c.cfg i n l (.gives i' r) →
      Does pwd c s text (.ret (setVar c a i', s) r)
  | varRefuses {a n l i ks} : Statement text a n l → Variable a → c.vars.lookup a = some i → (n, ks) ∈ signature i →
      l.length = ks.length → (∀ q ∈ ks.zip l, Good q.1 q.2) → Behaves c.cfg i n l .refuses →
      Does pwd c s text (.thr (c, s) .invalidArgument)
  | varBehavesUndefined {a n l i ks} : Statement text a n l → Variable a → c.vars.lookup a = some i → (n, ks) ∈ signature i →
      l.length = ks.length → (∀ q ∈ ks.zip l, Good q.1 q.2) → Behaves c.cfg i n l .undefined → Does pwd c s text .ub
  | noConnection {n l} : Statement text b!"Connection" n l → s = none → Does pwd c s text .ub
  | connection {n l x r} : Statement text b!"Connection" n l → s = some x → SessDoes pwd x n l r → Does pwd c s text (onConn c r)

theorem execute_does [StdSort] (pwd : Str) {c : Ctx} (hc : Inv c) (s : Option Session) (text : Str) :
    ∃ r, Does pwd c s text r ∧ execute pwd c s text = finish text r := by
  by_cases hst : ∃ a n l, Statement text a n l
  · obtain ⟨a, n, l, h⟩ := hst
    have e := execute_statement pwd c s _ _ _ _ h
    rcases statement_actor _ _ _ _ h with hA | hA | hA | hA
    · subst hA
      rw [executeParsed_connection _ _ _ _ (by simp [isConnection])] at e
      cases s with
      | none => exact ⟨_, .noConnection h rfl, e⟩
      | some x => exact ⟨_, .connection h rfl (session_does pwd x n l), e⟩
    · subst hA
      rw [executeParsed_context _ _ _ _ (by simp [isContext])] at e
      exact ⟨_, .context h (context_does c hc n l), e⟩
    · rw [executeParsed_type _ _ _ _ ((isType_iff _).2 hA)] at e
      rcases executeInType_cases c hc ⟨a, n, l⟩ hA with
        ⟨h1, h2⟩ | ⟨ks, hk, ⟨h1, h2⟩ | ⟨h1, h3, h2⟩ | ⟨h1, h3, h2⟩ | ⟨v, i, hcr, ⟨hl, h2⟩ | ⟨j, hl, h3, h2⟩ | ⟨j, hl, h3, h2⟩⟩⟩ <;>
        rw [h2] at e
      · exact ⟨_, .typeNoMessage h hA h1, e⟩
      · exact ⟨_, .typeWrongNumber h hA hk h1, e⟩
      · exact ⟨_, .typeInvalid h hA hk h1 h3, e⟩
      · exact ⟨_, .typeUndefined h hA hk h1 h3, e⟩
      · exact ⟨_, .created h hA hcr hl, e⟩
      · exact ⟨_, .kept h hA hcr hl h3, e⟩
      · exact ⟨_, .used h hA hcr hl h3, e⟩
    · rw [executeParsed_variable _ _ _ _ ((isVariable_iff _).2 hA)] at e
      cases hl : c.vars.lookup a with
      | none => rw [executeInVariable_none c hc ⟨a, n, l⟩ hl] at e; exact ⟨_, .absent h hA hl, e⟩
      | some i =>
        rw [executeInVariable_some c hc ⟨a, n, l⟩ i hl] at e
        rcases receive_cases c.cfg i (hc.wellTyped hl) n l with
          ⟨h1, h2⟩ | ⟨ks, hk, ⟨h1, h2⟩ | ⟨h1, h3, h2⟩ | ⟨h1, h3, h2⟩ | ⟨h1, h3, r, hr, h2⟩⟩ <;> simp only [] at e <;> rw [h2] at e
        · exact ⟨_, .varNoMessage h hA hl h1, e⟩
        · exact ⟨_, .varWrongNumber h hA hl hk h1, e⟩
        · exact ⟨_, .varInvalid h hA hl hk h1 h3, e⟩
        · exact ⟨_, .varUndefined h hA hl hk h1 h3, e⟩
        · cases r with
          | gives i' o => exact ⟨_, .varGives h hA hl hk h1 h3 hr, e⟩
          | refuses => exact ⟨_, .varRefuses h hA hl hk h1 h3 hr, e⟩
          | undefined => exact ⟨_, .varBehavesUndefined h hA hl hk h1 h3 hr, e⟩
  · exact ⟨_, .syntaxError hst, execute_not_statement pwd c s text hst⟩

/-- The same for a request that ended. -/
theorem execute_done [StdSort] {pwd : Str} {c c' : Ctx} (hc : Inv c) {s s' : Option Session} {text r : Str}
    (h : execute pwd c s text = .done (c', s', r)) :
    ∃ x, c' = x.record text r ∧ (Does pwd c s text (.ret (x, s') r) ∨ ∃ e, Does pwd c s text (.thr (x, s') e) ∧ r = e.text) := by
  obtain ⟨y, hd, he⟩ := execute_does pwd hc s text
  rw [he] at h
  cases y with
  | ub => cases h
  | ret p o => obtain ⟨x, t⟩ := p; cases h; exact ⟨x, rfl, .inl hd⟩
  | thr p o => obtain ⟨x, t⟩ := p; cases h; exact ⟨x, rfl, .inr ⟨o, hd, rfl⟩⟩

theorem execute_ub [StdSort] {pwd : Str} {c : Ctx} (hc : Inv c) {s : Option Session} {text : Str} :
    execute pwd c s text = .ub → Does pwd c s text .ub := by
  intro h
  obtain ⟨y, hd, he⟩ := execute_does pwd hc s text
  rw [he] at h
  cases y with
  | ub => exact hd
  | ret p o => obtain ⟨x, t⟩ := p; cases h
  | thr p o => obtain ⟨x, t⟩ := p; cases h

end Knuckle
