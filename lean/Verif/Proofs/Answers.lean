/-
From what an instance does with a message to what a request does.
-/
import Verif.Proofs.Invariant
import Verif.Spec.Answers

namespace Knuckle

open Spec

theorem holds_variable [StdSort] {c : Ctx} (hc : Reachable c) {n : Str} {i : Inst} (h : Holds c n i) : Variable n :=
  ((reachable_inv hc).vars _ (lookup_some_mem h)).1

theorem holds_wellTyped [StdSort] {c : Ctx} (hc : Reachable c) {n : Str} {i : Inst} (h : Holds c n i) : WellTyped i :=
  (reachable_inv hc).wellTyped h

/-- A request to an existing variable. -/
theorem execute_holds [StdSort] {pwd : Str} {c : Ctx} (hc : Reachable c) {s : Option Session} {text n name : Str}
    {args : List Str} {i : Inst} (hn : Holds c n i) (h : Statement text n name args) :
    execute pwd c s text = match receive c.cfg i name args with
      | .ret i' r => .done ((setVar c n i').record text r, s, r)
      | .thr _ e => .done (c.record text e.text, s, e.text)
      | .ub => .ub := by
  have hv := (isVariable_iff n).2 (holds_variable hc hn)
  rw [execute_statement _ _ _ _ _ _ _ h, executeParsed_variable _ _ _ _ hv, executeInVariable_some c (reachable_inv hc) ⟨n, name, args⟩ i hn]
  simp only []
  cases receive c.cfg i name args <;> rfl

theorem answers_of [StdSort] {pwd : Str} {c : Ctx} (hc : Reachable c) {s : Option Session} {text n name : Str}
    {args : List Str} {i : Inst} (hn : Holds c n i) (h : Statement text n name args) (r : Result Inst)
    (hr : receive c.cfg i name args = r.run i) : Answers pwd c s text n r := by
  have e := execute_holds (pwd := pwd) (s := s) hc hn h
  rw [hr] at e
  cases r with
  | gives i' o => exact ⟨_, e, onlyChanged_record _ _ _ _ _ _ (onlyChanged_setVar c n i' i hn)⟩
  | refuses => exact ⟨_, e, sameData_record _ _ _⟩
  | undefined => exact e

theorem onlyChanged_same [StdSort] {c c' : Ctx} (hc : Reachable c) {n : Str} {i : Inst} (hn : Holds c n i)
    (h : OnlyChanged c c' n i) : SameData c c' := by
  have ha := (reachable_inv hc).asc
  refine ⟨vars_ext _ _ (by rw [h.2.1]; exact ha) ha fun m => ?_, h.1⟩
  rw [h.2.2]
  split
  · rename_i e; rw [e]; exact hn.symm
  · rfl

/-- A message that leaves the value as it is. -/
theorem justReplies_of [StdSort] {pwd : Str} {c : Ctx} (hc : Reachable c) {s : Option Session} {text n r : Str}
    {i : Inst} (hn : Holds c n i) (h : Answers pwd c s text n (.gives i r)) : JustReplies pwd c s text r := by
  obtain ⟨c', h1, h2⟩ := h
  exact ⟨c', h1, onlyChanged_same hc hn h2⟩

section
variable [StdSort] {pwd : Str} {c : Ctx} {s : Option Session} {text n name : Str} {args : List Str}

theorem answers_bool (hc : Reachable c) {v : Bool} (hn : Holds c n (.boolean v)) (h : Statement text n name args) {m : BoolMsg}
    (hm : BoolSays name args m) : Answers pwd c s text n ((boolMeaning v m).map .boolean) :=
  answers_of hc hn h _ (by rw [← wrap_run, ← bool_says v name args m hm]; rfl)

theorem answers_char (hc : Reachable c) {v : Byte} (hn : Holds c n (.character v)) (h : Statement text n name args) {m : CharMsg}
    (hm : CharSays name args m) : Answers pwd c s text n ((charMeaning v m).map .character) :=
  answers_of hc hn h _ (by rw [← wrap_run, ← char_says c.cfg.eps v name args m hm]; rfl)

theorem answers_int (hc : Reachable c) {v : Int} (hn : Holds c n (.integer v)) (h : Statement text n name args) {m : IntMsg}
    (hm : IntSays name args m) : Answers pwd c s text n ((intMeaning c.cfg.eps v m).map .integer) :=
  answers_of hc hn h _ (by rw [← wrap_run, ← int_says c.cfg.eps v (holds_wellTyped hc hn) name args m hm]; rfl)

theorem answers_flt (hc : Reachable c) {v : Fl} (hn : Holds c n (.float v)) (h : Statement text n name args) {m : FltMsg}
    (hm : FltSays name args m) : Answers pwd c s text n ((fltMeaning c.cfg v m).map .float) :=
  answers_of hc hn h _ (by rw [← wrap_run, ← flt_says c.cfg v name args m hm]; rfl)

theorem answers_str (hc : Reachable c) {v : Str} (hn : Holds c n (.string v)) (h : Statement text n name args) {m : StrMsg}
    (hm : StrSays name args m) : Answers pwd c s text n ((strMeaning v m).map .string) :=
  answers_of hc hn h _ (by rw [← wrap_run, ← str_says c.cfg.eps v name args m hm]; rfl)

theorem answers_vec (hc : Reachable c) {t : Str} {l : List Obj} (hn : Holds c n (.vector t l)) (h : Statement text n name args)
    {m : VecMsg} (hm : VecSays t name args m) : Answers pwd c s text n ((vecMeaning c.cfg l m).map (.vector t)) :=
  answers_of hc hn h _ (by rw [← wrap_run, ← vec_says c.cfg t l (holds_wellTyped hc hn).2 name args m hm]; rfl)

theorem answers_set (hc : Reachable c) {t : Str} {l : List Obj} (hn : Holds c n (.set t l)) (h : Statement text n name args)
    {m : SetMsg} (hm : SetSays t name args m) : Answers pwd c s text n ((setMeaning c.cfg l m).map (.set t)) :=
  answers_of hc hn h _ (by rw [← wrap_run, ← set_says c.cfg t l (holds_wellTyped hc hn).2.1 name args m hm]; rfl)

theorem answers_dict (hc : Reachable c) {t u : Str} {l : List (Obj × Obj)} (hn : Holds c n (.dictionary t u l))
    (h : Statement text n name args) {m : DictMsg} (hm : DictSays t u name args m) :
    Answers pwd c s text n ((dictMeaning c.cfg l m).map (.dictionary t u)) :=
  answers_of hc hn h _ (by
    rw [← wrap_run, ← dict_says c.cfg t u l (fun x hx => ((holds_wellTyped hc hn).2.2.1 x hx).1) name args m hm]; rfl)

/-- Any message to an existing variable. -/
theorem answers_any (hc : Reachable c) {i : Inst} (hn : Holds c n i) (h : Statement text n name args) :
    ((∀ p ∈ signature i, p.1 ≠ name) ∧ JustReplies pwd c s text b!"RuntimeError: invalid message.") ∨
    (∃ ks, (name, ks) ∈ signature i ∧ (
      (args.length ≠ ks.length ∧ JustReplies pwd c s text b!"RuntimeError: wrong number of arguments.") ∨
      (args.length = ks.length ∧ (∃ p ∈ ks.zip args, ¬ Fits p.1 p.2) ∧
        JustReplies pwd c s text b!"RuntimeError: invalid argument.") ∨
      (args.length = ks.length ∧ (∃ p ∈ ks.zip args, Overflows p.1 p.2) ∧ execute pwd c s text = .ub) ∨
      (args.length = ks.length ∧ (∀ p ∈ ks.zip args, Good p.1 p.2) ∧
        ∃ r, Behaves c.cfg i name args r ∧ Answers pwd c s text n r))) := by
  have e := execute_holds (pwd := pwd) (s := s) hc hn h
  rcases receive_cases c.cfg i (holds_wellTyped hc hn) name args with
    ⟨h1, h2⟩ | ⟨ks, hk, ⟨h1, h2⟩ | ⟨h1, h3, h2⟩ | ⟨h1, h3, h2⟩ | ⟨h1, h3, r, hr, h2⟩⟩
  · rw [h2] at e; exact .inl ⟨h1, _, e, sameData_record _ _ _⟩
  · rw [h2] at e; exact .inr ⟨ks, hk, .inl ⟨h1, _, e, sameData_record _ _ _⟩⟩
  · rw [h2] at e; exact .inr ⟨ks, hk, .inr (.inl ⟨h1, h3, _, e, sameData_record _ _ _⟩)⟩
  · rw [h2] at e; exact .inr ⟨ks, hk, .inr (.inr (.inl ⟨h1, h3, e⟩))⟩
  · exact .inr ⟨ks, hk, .inr (.inr (.inr ⟨h1, h3, r, hr, answers_of hc hn h r h2⟩))⟩

end

end Knuckle
