/-
First facts about `execute`: it depends on the text only through the statement the text is.
-/
import Verif.Proofs.Parser
import Verif.Spec.Effect
import Verif.Spec.Layout

namespace Knuckle

open Spec

/-- What `execute` does with the end of `executeParsed`. -/
def finish (input : Str) : Run (Ctx × Option Session) → Outcome (Ctx × Option Session × Str)
  | .ub => .ub
  | .ret (c', s') r => .done (c'.record input r, s', r)
  | .thr (c', s') e => .done (c'.record input e.text, s', e.text)

theorem execute_statement [StdSort] (pwd : Str) (c : Ctx) (s : Option Session) (text actor name : Str) (args : List Str)
    (h : Statement text actor name args) :
    execute pwd c s text = finish text (executeParsed pwd c s ⟨actor, name, args⟩) := by
  unfold execute
  rw [parse_complete _ _ _ _ h]
  simp only []
  rcases executeParsed pwd c s ⟨actor, name, args⟩ with ⟨⟨_, _⟩, _⟩ | ⟨⟨_, _⟩, _⟩ | _ <;> rfl

theorem execute_not_statement [StdSort] (pwd : Str) (c : Ctx) (s : Option Session) (text : Str)
    (h : ¬ ∃ a n l, Statement text a n l) :
    execute pwd c s text = .done (c.record text b!"SyntaxError: invalid statement.", s, b!"SyntaxError: invalid statement.") := by
  unfold execute
  rcases parse_cases text with ⟨p, hp⟩ | hp
  · exact absurd ⟨_, _, _, (parse_iff text p).1 hp⟩ h
  · rw [hp]; rfl

theorem record_vars (c : Ctx) (i o : Str) : (c.record i o).vars = c.vars := by
  unfold Ctx.record; split
  · rfl
  · split <;> rfl

theorem record_cfg (c : Ctx) (i o : Str) : (c.record i o).cfg = c.cfg := by
  unfold Ctx.record; split
  · rfl
  · split <;> rfl

theorem sameData_record (c : Ctx) (i o : Str) : SameData c (c.record i o) := ⟨record_vars c i o, record_cfg c i o⟩

/-- The four kinds of actors exclude each other. -/
theorem isType_not_variable (a : Str) (h : isType a = true) : isVariable a = false := by
  rw [Bool.eq_false_iff]; intro hv
  rw [isType_iff] at h; rw [isVariable_iff] at hv
  have hw := (variable_word a hv).1
  rcases h with h | h
  · have : ReservedWord a := by
      unfold ObjectType at h; unfold ReservedWord
      simp only [List.mem_cons, List.not_mem_nil, or_false] at h ⊢
      rcases h with h | h | h | h | h <;> simp [h]
    rcases hv with hv | ⟨n, i, rfl, hn, hi⟩
    · exact hv.2 this
    · unfold ObjectType at h
      have : c!":" ∈ n ++ (b!"::" ++ i) := by simp
      simp only [List.mem_cons, List.not_mem_nil, or_false] at h
      rcases h with h | h | h | h | h <;> rw [h] at this <;> revert this <;> decide
  · have : c!"<" ∈ a := by
      rcases h with h | h | h
      · obtain ⟨w, t, w', rfl, _⟩ := h; simp
      · obtain ⟨w, t, w', rfl, _⟩ := h; simp
      · obtain ⟨w, t, w', v, t', v', rfl, _⟩ := h; simp
    have := hw _ this
    revert this
    unfold WordChar Letter Digit
    decide

theorem variable_not_special (a : Str) (h : isVariable a = true) : isConnection a = false ∧ isContext a = false := by
  constructor
  · rw [Bool.eq_false_iff]; intro hc
    have : a = b!"Connection" := by simpa [isConnection] using hc
    subst this; revert h; decide
  · rw [Bool.eq_false_iff]; intro hc
    have : a = b!"Context" := by simpa [isContext] using hc
    subst this; revert h; decide

theorem isConnection_eq (a : Str) : isConnection a = true ↔ a = b!"Connection" := by simp [isConnection]
theorem isContext_eq (a : Str) : isContext a = true ↔ a = b!"Context" := by simp [isContext]

/-- `executeParsed` passes the session on unchanged when the statement is not for the connection. -/
def onCtx (s : Option Session) : Run Ctx → Run (Ctx × Option Session)
  | .ret c' r => .ret (c', s) r
  | .thr c' e => .thr (c', s) e
  | .ub => .ub

theorem executeParsed_type [StdSort] (pwd : Str) (c : Ctx) (s : Option Session) (p : Parsed) (h : isType p.actor = true) :
    executeParsed pwd c s p = onCtx s (executeInType c p) := by
  simp only [executeParsed, h, if_true]; rfl

theorem executeParsed_context [StdSort] (pwd : Str) (c : Ctx) (s : Option Session) (p : Parsed)
    (h : isContext p.actor = true) :
    executeParsed pwd c s p = onCtx s (dispatch c (contextTable c) p.name p.args) := by
  have e := (isContext_eq _).1 h
  have ht : isType p.actor = false := by rw [e]; decide
  simp only [executeParsed, h, ht, if_true, Bool.false_eq_true, if_false]; rfl

theorem executeParsed_variable [StdSort] (pwd : Str) (c : Ctx) (s : Option Session) (p : Parsed)
    (h : isVariable p.actor = true) :
    executeParsed pwd c s p = onCtx s (executeInVariable c p) := by
  have hc := (variable_not_special _ h).2
  have ht : isType p.actor = false := by
    rw [Bool.eq_false_iff]; intro ht; rw [isType_not_variable _ ht] at h; cases h
  simp only [executeParsed, h, ht, hc, if_true, Bool.false_eq_true, if_false]; rfl

/-- A statement for the connection. -/
def onConn (c : Ctx) : Run Session → Run (Ctx × Option Session)
  | .ret s' r => .ret (c, some s') r
  | .thr s' e => .thr (c, some s') e
  | .ub => .ub

theorem executeParsed_connection [StdSort] (pwd : Str) (c : Ctx) (s : Option Session) (p : Parsed)
    (h : isConnection p.actor = true) :
    executeParsed pwd c s p = (match s with | none => .ub | some s => onConn c (s.receive pwd p.name p.args)) := by
  have e := (isConnection_eq _).1 h
  have ht : isType p.actor = false := by rw [e]; decide
  have hc : isContext p.actor = false := by rw [e]; decide
  have hv : isVariable p.actor = false := by rw [e]; decide
  simp only [executeParsed, h, ht, hc, hv, if_true, Bool.false_eq_true, if_false]
  cases s <;> rfl

theorem statement_actor (text a n : Str) (l : List Str) (h : Statement text a n l) : Actor a := by
  obtain ⟨_, _, _, _, _, _, _, _, h, _⟩ := h; exact h

theorem statement_message (text a n : Str) (l : List Str) (h : Statement text a n l) : ∃ msg, Message msg n l := by
  obtain ⟨_, _, _, m, _, _, _, _, _, _, _, h, _⟩ := h; exact ⟨m, h⟩

/-- The four possibilities of executing a request. -/
theorem execute_cases [StdSort] (pwd : Str) (c : Ctx) (s : Option Session) (text : Str) :
    (execute pwd c s text = .done (c.record text Exc.invalidStatement.text, s, Exc.invalidStatement.text)) ∨
    (∃ p : Parsed, Statement text p.actor p.name p.args ∧ isType p.actor = true ∧
      execute pwd c s text = finish text (onCtx s (executeInType c p))) ∨
    (∃ p : Parsed, Statement text p.actor p.name p.args ∧ isContext p.actor = true ∧
      execute pwd c s text = finish text (onCtx s (dispatch c (contextTable c) p.name p.args))) ∨
    (∃ p : Parsed, Statement text p.actor p.name p.args ∧ isVariable p.actor = true ∧
      execute pwd c s text = finish text (onCtx s (executeInVariable c p))) ∨
    (∃ p : Parsed, Statement text p.actor p.name p.args ∧ isConnection p.actor = true ∧
      execute pwd c s text = finish text (executeParsed pwd c s p)) := by
  by_cases h : ∃ a n l, Statement text a n l
  · obtain ⟨a, n, l, h⟩ := h
    have hA := statement_actor _ _ _ _ h
    have e := execute_statement pwd c s _ _ _ _ h
    rcases hA with hA | hA | hA | hA
    · exact .inr (.inr (.inr (.inr ⟨⟨a, n, l⟩, h, (isConnection_eq _).2 hA, e⟩)))
    · have hA := (isContext_eq _).2 hA
      exact .inr (.inr (.inl ⟨⟨a, n, l⟩, h, hA, by rw [e, executeParsed_context _ _ _ _ hA]⟩))
    · have hA := (isType_iff _).2 hA
      exact .inr (.inl ⟨⟨a, n, l⟩, h, hA, by rw [e, executeParsed_type _ _ _ _ hA]⟩)
    · have hA := (isVariable_iff _).2 hA
      exact .inr (.inr (.inr (.inl ⟨⟨a, n, l⟩, h, hA, by rw [e, executeParsed_variable _ _ _ _ hA]⟩)))
  · exact .inl (execute_not_statement pwd c s text h)

end Knuckle
