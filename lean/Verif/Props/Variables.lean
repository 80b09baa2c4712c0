/-
C07, C25, C28–C31: the variables of the context.
-/
import Verif.Proofs.Changes
import Verif.Proofs.Compare
import Verif.Props.Demo

namespace Knuckle.Props

open Spec

variable {pwd pwd' : Str} {c c' d : Ctx} {s s' : Option Session} {text n m r : Str}

/-! ### C07 -/

/-- C07: every variable that exists has a well-formed name: an identifier, or two of them with `::` in between, none of
them reserved. -/
theorem C07_names_are_well_formed [StdSort] {i : Inst} (hc : Reachable c) (hn : Holds c n i) :
    (Identifier n ∧ ¬ ReservedWord n) ∨
    ∃ ns x, n = ns ++ (b!"::" ++ x) ∧ Identifier ns ∧ Identifier x ∧ ¬ ReservedWord ns ∧ ¬ ReservedWord x := by
  rcases holds_variable hc hn with h | ⟨a, b, e, ha, hb⟩
  · exact .inl ⟨h, h.2⟩
  · exact .inr ⟨a, b, e, ha, hb, ha.2, hb.2⟩

example [StdSort] : Reachable demo ∧ Holds demo b!"a::c" (.character c!"x") ∧ Holds demo b!"b" (.boolean true) :=
  ⟨demo_reachable, by decide +kernel, by decide +kernel⟩

/-! ### C25 -/

/-- C25: in every reachable context, elements of containers have the declared types (and integers have 32 bits). -/
theorem C25_containers_are_typed [StdSort] {i : Inst} (hc : Reachable c) (hn : Holds c n i) :
    (∀ t l, i = .vector t l → ∀ x ∈ l, HasType t x) ∧ (∀ t l, i = .set t l → ∀ x ∈ l, HasType t x) ∧
    (∀ t u l, i = .dictionary t u l → ∀ p ∈ l, HasType t p.1 ∧ HasType u p.2) ∧ (∀ v, i = .integer v → IsInt32 v) ∧
    (∀ x, i = .float x → x.toF32 = x) := by
  have h := holds_wellTyped hc hn
  refine ⟨?_, ?_, ?_, ?_, ?_⟩
  · rintro t l rfl; exact h.2
  · rintro t l rfl; exact h.2.1
  · rintro t u l rfl; exact h.2.2.1
  · rintro v rfl; exact h
  · rintro v rfl; exact h

/-- The exceptions a request can end with. -/
theorem does_exc {x : Ctx} {e : Exc} (h : Does pwd c s text (.thr (x, s') e)) :
    e ≠ .invalidComparison ∧ e ≠ .notAuthenticated ∧ e ≠ .unknown := by
  generalize hy : Run.thr (x, s') e = y at h
  cases h with
  | context _ h => cases h <;> cases hy <;> decide
  | connection _ _ h => cases h <;> cases hy <;> decide
  | _ => cases hy <;> decide

/-- C25: the reply 'cannot compare these two types' never occurs. -/
theorem C25_never_incomparable [StdSort] (hc : Reachable c) (h : execute pwd c s text = .done (c', s', r)) :
    r ≠ b!"RuntimeError: cannot compare these two types." := by
  obtain ⟨x, rfl, hd | ⟨e, hd, rfl⟩⟩ := execute_done (reachable_inv hc) h
  · intro e; exact (okReply_not_error (does_ok hd)).1 (by rw [e]; decide)
  · have := (does_exc hd).1; revert this; cases e <;> decide

/-- A container of characters and integers, to which a comparison between keys and values would not apply. -/
example [StdSort] : Reachable demo ∧
    Holds demo b!"d" (.dictionary b!"Character" b!"Integer" [(.character c!"k", .integer 1)]) :=
  ⟨demo_reachable, by decide +kernel⟩

/-! ### C28 -/

/-- C28: a request to a variable leaves all other variables, the settings and the session unchanged. -/
theorem C28_only_the_receiver_changes [StdSort] {name : Str} {args : List Str} (hc : Reachable c) (hv : Variable n)
    (hs : Statement text n name args) (h : execute pwd c s text = .done (c', s', r)) :
    s' = s ∧ c'.cfg = c.cfg ∧ ∀ m, m ≠ n → ∀ i, Holds c' m i ↔ Holds c m i := by
  have e := execute_statement pwd c s _ _ _ _ hs
  rw [executeParsed_variable _ _ _ _ ((isVariable_iff n).2 hv)] at e
  cases hl : c.vars.lookup n with
  | none =>
    rw [executeInVariable_none c (reachable_inv hc) ⟨n, name, args⟩ hl] at e
    rw [h] at e; cases e
    exact ⟨rfl, record_cfg _ _ _, fun m _ i => by unfold Holds; rw [record_vars]⟩
  | some j =>
    rw [executeInVariable_some c (reachable_inv hc) ⟨n, name, args⟩ j hl] at e
    simp only [] at e
    rw [h] at e
    cases hr : receive c.cfg j name args with
    | ub => rw [hr] at e; cases e
    | thr i' x =>
      rw [hr] at e; cases e
      exact ⟨rfl, record_cfg _ _ _, fun m _ i => by unfold Holds; rw [record_vars]⟩
    | ret i' x =>
      rw [hr] at e; cases e
      refine ⟨rfl, record_cfg _ _ _, fun m hm i => ?_⟩
      unfold Holds
      rw [record_vars, (onlyChanged_setVar c n i' j hl).2.2, if_neg hm]

/-- What is observable of a request to `n`: whether it is defined, the reply, and what `n` is afterwards. -/
def seenAt (n : Str) : Outcome (Ctx × Option Session × Str) → Option (Str × Option Inst)
  | .done (c, _, r) => some (r, c.vars.lookup n)
  | .ub => none

/-- C28: whether a request to a variable is defined, what it replies and what the variable holds afterwards depends only
on that variable and the settings: not on other variables, the session or the password. -/
theorem C28_depends_only_on_the_receiver [StdSort] {name : Str} {args : List Str} (hc : Reachable c) (hd : Reachable d)
    (hv : Variable n) (hs : Statement text n name args) (hcfg : c.cfg = d.cfg) (hn : ∀ i, Holds c n i ↔ Holds d n i) :
    seenAt n (execute pwd c s text) = seenAt n (execute pwd' d s' text) := by
  have hl : c.vars.lookup n = d.vars.lookup n := by
    cases h1 : c.vars.lookup n with
    | some i => exact ((hn i).1 h1).symm
    | none => cases h2 : d.vars.lookup n with
      | none => rfl
      | some i => rw [(hn i).2 h2] at h1; cases h1
  have e1 := execute_statement pwd c s _ _ _ _ hs
  have e2 := execute_statement pwd' d s' _ _ _ _ hs
  rw [executeParsed_variable _ _ _ _ ((isVariable_iff n).2 hv)] at e1 e2
  cases h2 : d.vars.lookup n with
  | none =>
    rw [h2] at hl
    rw [executeInVariable_none c (reachable_inv hc) ⟨n, name, args⟩ hl] at e1
    rw [executeInVariable_none d (reachable_inv hd) ⟨n, name, args⟩ h2] at e2
    rw [e1, e2]
    simp only [onCtx, finish, seenAt, record_vars, hl, h2]
  | some j =>
    rw [h2] at hl
    rw [executeInVariable_some c (reachable_inv hc) ⟨n, name, args⟩ j hl, hcfg] at e1
    rw [executeInVariable_some d (reachable_inv hd) ⟨n, name, args⟩ j h2] at e2
    rw [e1, e2]
    simp only []
    cases receive d.cfg j name args with
    | ub => rfl
    | thr i' x => simp only [onCtx, finish, seenAt, record_vars, hl, h2]
    | ret i' x =>
      simp only [onCtx, finish, seenAt, record_vars, (onlyChanged_setVar c n i' j hl).2.2,
        (onlyChanged_setVar d n i' j h2).2.2, if_true]

/-- C28: a variable keeps its value as long as requests are neither addressed to it nor delete it. -/
theorem C28_variables_persist [StdSort] {i : Inst} (hc : Reachable c) (hn : Holds c n i) (hno : ¬ Concerns text n)
    (h : execute pwd c s text = .done (c', s', r)) : Holds c' n i := by
  unfold Holds at *
  obtain ⟨x, rfl, hd | ⟨e, hd, rfl⟩⟩ := execute_done (reachable_inv hc) h
  · rw [record_vars]
    rcases does_lookup (reachable_inv hc) hd n with h1 | ⟨_, h1⟩ | ⟨h1, _⟩
    · rw [h1]; exact hn
    · exact absurd h1 hno
    · rw [h1] at hn; cases hn
  · rw [record_vars, (does_thr hd).1]; exact hn

/-- Two contexts that agree on the variable `v` only. -/
example [StdSort] : Reachable demo ∧ Statement b!"v size;" b!"v" b!"size" [] ∧ Variable b!"v" ∧
    Statement b!"Context deleteVariablesOfNamespace: a;" b!"Context" b!"deleteVariablesOfNamespace:" [b!"a"] :=
  ⟨demo_reachable, reads (by decide +kernel), (isVariable_iff _).1 (by decide), reads (by decide +kernel)⟩

set_option maxRecDepth 10000 in
/-- Deleting the namespace `a` does not concern `v`. -/
example : ¬ Concerns b!"Context deleteVariablesOfNamespace: a;" b!"v" := by
  have hp : Statement b!"Context deleteVariablesOfNamespace: a;" b!"Context" b!"deleteVariablesOfNamespace:" [b!"a"] :=
    reads (by decide +kernel)
  intro h
  cases h with
  | message h => have := (statement_unique hp h).1; revert this; decide
  | delete h => have := (statement_unique hp h).2.1; revert this; decide
  | @deleteNamespace ns h h2 =>
    obtain ⟨x, _, e⟩ := h2
    have := (statement_unique hp h).2.2
    simp only [List.cons.injEq, and_true] at this
    subst this
    have := congrArg List.length e
    simp at this

/-! ### C29 -/

/-- C29: a creation with a fresh name adds exactly that variable, with the value asked for, and replies `null`. -/
theorem C29_creation_adds_one_variable [StdSort] {i : Inst} (hc : Reachable c) (hcr : CreationOf text n i) (hn : Absent c n) :
    ∃ c', Replies pwd c s text b!"null" c' ∧ c'.cfg = c.cfg ∧ Holds c' n i ∧ ∀ m, m ≠ n → ∀ j, Holds c' m j ↔ Holds c m j := by
  obtain ⟨a, name, args, hs, hcr⟩ := hcr
  have e := execute_creates (pwd := pwd) (s := s) (reachable_inv hc) hs hcr
  unfold Absent at hn
  rw [hn] at e
  refine ⟨_, e, record_cfg _ _ _, ?_, fun m hm j => ?_⟩
  · unfold Holds; rw [record_vars, mapInsert_lookup _ _ _ (reachable_inv hc).asc, if_pos rfl]
  · unfold Holds; rw [record_vars, mapInsert_lookup _ _ _ (reachable_inv hc).asc, if_neg hm]

/-- C29: `create:` with a name in use is refused and changes nothing. -/
theorem C29_create_never_overwrites [StdSort] {a name : Str} {args : List Str} {i j : Inst} (hc : Reachable c)
    (hs : Statement text a name args) (hcr : Creates a name args n i) (hn : Holds c n j)
    (hname : name = b!"create:" ∨ name = b!"create:withValue:") :
    JustReplies pwd c s text b!"RuntimeError: variable name already used." := by
  have e := execute_creates (pwd := pwd) (s := s) (reachable_inv hc) hs hcr
  unfold Holds at hn
  rw [hn] at e
  have : startsWith name b!"createIfNotExists:" = false := by rcases hname with rfl | rfl <;> decide
  rw [this] at e
  exact ⟨_, e, sameData_record _ _ _⟩

/-- C29: `createIfNotExists:` with a name in use (whatever the type and value) replies `null` and changes nothing. -/
theorem C29_createIfNotExists_never_overwrites [StdSort] {a name : Str} {args : List Str} {i j : Inst} (hc : Reachable c)
    (hs : Statement text a name args) (hcr : Creates a name args n i) (hn : Holds c n j)
    (hname : name = b!"createIfNotExists:" ∨ name = b!"createIfNotExists:withValue:") :
    JustReplies pwd c s text b!"null" := by
  have e := execute_creates (pwd := pwd) (s := s) (reachable_inv hc) hs hcr
  unfold Holds at hn
  rw [hn] at e
  have : startsWith name b!"createIfNotExists:" = true := by rcases hname with rfl | rfl <;> decide
  rw [this] at e
  exact ⟨_, e, sameData_record _ _ _⟩

/-- C29: variables come into being only through creations. -/
theorem C29_only_creations_create [StdSort] {i : Inst} (hc : Reachable c) (hn : Absent c n)
    (h : execute pwd c s text = .done (c', s', r)) (hn' : Holds c' n i) : CreationOf text n i := by
  unfold Absent at hn
  unfold Holds at hn'
  obtain ⟨x, rfl, hd | ⟨e, hd, rfl⟩⟩ := execute_done (reachable_inv hc) h
  · rw [record_vars] at hn'
    rcases does_lookup (reachable_inv hc) hd n with h1 | ⟨⟨j, h1⟩, _⟩ | ⟨_, j, h1, h2⟩
    · rw [h1, hn] at hn'; cases hn'
    · rw [hn] at h1; cases h1
    · rw [hn'] at h2; cases h2; exact h1
  · rw [record_vars, (does_thr hd).1, hn] at hn'; cases hn'

/-- A creation of every kind. -/
example : CreationOf b!"Integer create: a::k withValue: 12;" b!"a::k" (.integer 12) ∧
    CreationOf b!"String createIfNotExists: k;" b!"k" (.string []) ∧
    CreationOf b!"Dictionary< String , Float > create: k;" b!"k" (.dictionary b!"String" b!"Float" []) := by
  refine ⟨⟨b!"Integer", b!"create:withValue:", [b!"a::k", b!"12"], reads (by decide +kernel), ?_⟩,
    ⟨b!"String", b!"createIfNotExists:", [b!"k"], reads (by decide +kernel), ?_⟩,
    ⟨b!"Dictionary< String , Float >", b!"create:", [b!"k"], reads (by decide +kernel), ?_⟩⟩
  · exact .value (o := .integer 12) (by unfold ObjectType; decide) (by decide) ((isVariable_iff _).1 (by decide))
      (lit_int rfl rfl (by decide))
  · exact .string (by decide) ((isVariable_iff _).1 (by decide))
  · have hsp : Spaces b!" " := by intro c hc; simp at hc; subst hc; exact .inl rfl
    exact .dictionary (t := b!"String") (u := b!"Float") hsp (by unfold ObjectType; decide) hsp hsp
      (by unfold ObjectType; decide) hsp (by decide) ((isVariable_iff _).1 (by decide))

/-! ### C30 -/

/-- What a statement to the context does. -/
theorem execute_context [StdSort] {name : Str} {args : List Str} (hc : Reachable c) (hs : Statement text b!"Context" name args) :
    ∃ w, CtxDoes c name args w ∧ execute pwd c s text = finish text (onCtx s w) := by
  have e := execute_statement pwd c s _ _ _ _ hs
  rw [executeParsed_context _ _ _ _ (by simp [isContext])] at e
  exact ⟨_, context_does c (reachable_inv hc) name args, e⟩

/-- C30: `deleteVariable:` removes exactly the named variable. -/
theorem C30_delete_removes_exactly_one [StdSort] {i : Inst} (hc : Reachable c)
    (hs : Statement text b!"Context" b!"deleteVariable:" [n]) (hn : Holds c n i) :
    ∃ c', Replies pwd c s text b!"null" c' ∧ c'.cfg = c.cfg ∧ Absent c' n ∧ ∀ m, m ≠ n → ∀ j, Holds c' m j ↔ Holds c m j := by
  have e := execute_statement pwd c s _ _ _ _ hs
  have hv := (isVariable_iff n).2 (holds_variable hc hn)
  rw [executeParsed_context _ _ _ _ (by simp [isContext])] at e
  have hd : dispatch c (contextTable c) b!"deleteVariable:" [n] = opDeleteVariable c [n] := rfl
  rw [hd] at e
  simp only [opDeleteVariable, op1, hv, Bool.not_true, Bool.false_eq_true, if_false] at e
  rw [eraseName_eq n c.vars (reachable_inv hc).asc, if_pos (lookup_isSome_iff.1 ⟨i, hn⟩)] at e
  have hf := filter_lookup (fun k => !(k == n)) c.vars
  refine ⟨_, e, record_cfg _ _ _, ?_, fun m hm j => ?_⟩
  · unfold Absent; rw [record_vars]
    refine (hf n).trans ?_; simp
  · unfold Holds; rw [record_vars]
    refine Eq.congr_left ((hf m).trans ?_); simp [hm]

/-- C30: deleting a variable that does not exist is reported and changes nothing. -/
theorem C30_delete_unknown [StdSort] (hc : Reachable c) (hv : Variable n)
    (hs : Statement text b!"Context" b!"deleteVariable:" [n]) (hn : Absent c n) :
    JustReplies pwd c s text b!"RuntimeError: name cannot be resolved to a variable." := by
  have e := execute_statement pwd c s _ _ _ _ hs
  have hv := (isVariable_iff n).2 hv
  rw [executeParsed_context _ _ _ _ (by simp [isContext])] at e
  have hd : dispatch c (contextTable c) b!"deleteVariable:" [n] = opDeleteVariable c [n] := rfl
  rw [hd] at e
  simp only [opDeleteVariable, op1, hv, Bool.not_true, Bool.false_eq_true, if_false] at e
  rw [eraseName_eq n c.vars (reachable_inv hc).asc, if_neg (lookup_none_iff.1 hn)] at e
  exact ⟨_, e, sameData_record _ _ _⟩

/-- C30: `deleteVariablesOfNamespace:` removes exactly the variables of that namespace (and never fails). -/
theorem C30_delete_namespace [StdSort] {ns : Str} (hc : Reachable c) (hns : Identifier ns)
    (hs : Statement text b!"Context" b!"deleteVariablesOfNamespace:" [ns]) :
    ∃ c', Replies pwd c s text b!"null" c' ∧ c'.cfg = c.cfg ∧ ∀ m j, Holds c' m j ↔ Holds c m j ∧ ¬ InNamespace m ns := by
  have e := execute_statement pwd c s _ _ _ _ hs
  rw [executeParsed_context _ _ _ _ (by simp [isContext])] at e
  have hd : dispatch c (contextTable c) b!"deleteVariablesOfNamespace:" [ns] = opDeleteVariablesOfNamespace c [ns] := rfl
  rw [hd] at e
  have hi : isNamespace ns = true := (isIdentifier_iff ns).2 hns
  simp only [opDeleteVariablesOfNamespace, op1, hi, Bool.not_true, Bool.false_eq_true, if_false] at e
  have hf := filter_lookup (fun k => !(startsWith k (ns ++ b!"::"))) c.vars
  refine ⟨_, e, record_cfg _ _ _, fun m j => ?_⟩
  unfold Holds; rw [record_vars]
  refine (Eq.congr_left (hf m)).trans ?_
  constructor
  · intro h
    split at h
    · rename_i hp
      refine ⟨h, fun hin => ?_⟩
      rw [(startsWith_ns (inv_variable (reachable_inv hc) h) hns).2 hin] at hp
      cases hp
    · cases h
  · rintro ⟨h, hin⟩
    have : startsWith m (ns ++ b!"::") = false := by
      rw [Bool.eq_false_iff]; intro hp; exact hin ((startsWith_ns (inv_variable (reachable_inv hc) h) hns).1 hp)
    rw [this]; exact h

/-- C30: a message to a variable that does not exist is answered with the error that says so, and changes nothing. -/
theorem C30_unknown_receiver [StdSort] {name : Str} {args : List Str} (hc : Reachable c) (hv : Variable n)
    (hs : Statement text n name args) (hn : Absent c n) :
    JustReplies pwd c s text b!"RuntimeError: name cannot be resolved to a variable." := by
  have e := execute_statement pwd c s _ _ _ _ hs
  rw [executeParsed_variable _ _ _ _ ((isVariable_iff n).2 hv), executeInVariable_none c (reachable_inv hc) ⟨n, name, args⟩ hn] at e
  exact ⟨_, e, sameData_record _ _ _⟩

example [StdSort] : Statement b!"Context deleteVariable: a::c;" b!"Context" b!"deleteVariable:" [b!"a::c"] ∧
    Holds demo b!"a::c" (.character c!"x") ∧ Absent demo b!"a::z" ∧ Variable b!"a::z" ∧ Identifier b!"a" ∧
    InNamespace b!"a::c" b!"a" :=
  ⟨reads (by decide +kernel), by decide +kernel, by unfold Absent; decide +kernel, (isVariable_iff _).1 (by decide),
    (isIdentifier_iff _).1 (by decide), b!"c", (isIdentifier_iff _).1 (by decide), rfl⟩

/-! ### C31 -/

/-- C31: `listVariables` lists exactly the existing names, once each, in ascending byte order. -/
theorem C31_listVariables [StdSort] (hc : Reachable c) (hs : Statement text b!"Context" b!"listVariables" []) :
    ∃ xs, JustReplies pwd c s text (listText c!"[" c!"]" xs) ∧ xs.Pairwise (· < ·) ∧ ∀ x, x ∈ xs ↔ ∃ i, Holds c x i := by
  have e := execute_statement pwd c s _ _ _ _ hs
  rw [executeParsed_context _ _ _ _ (by simp [isContext])] at e
  have hd : dispatch c (contextTable c) b!"listVariables" [] = .ret c (c!"[" :: (joinComma (c.vars.map (·.1)) ++ [c!"]"])) := rfl
  rw [hd, listText_join] at e
  refine ⟨_, ⟨_, e, sameData_record _ _ _⟩, ?_, fun x => lookup_isSome_iff.symm⟩
  exact (reachable_inv hc).asc.imp fun {a b} h => by rw [strLt_eq] at h; simpa using h

/-- C31: `listVariablesOfNamespace:` lists exactly the variables of that namespace, once each, in ascending byte order. -/
theorem C31_listVariablesOfNamespace [StdSort] {ns : Str} (hc : Reachable c) (hns : Identifier ns)
    (hs : Statement text b!"Context" b!"listVariablesOfNamespace:" [ns]) :
    ∃ xs, JustReplies pwd c s text (listText c!"[" c!"]" xs) ∧ xs.Pairwise (· < ·) ∧
      ∀ x, x ∈ xs ↔ (∃ i, Holds c x i) ∧ InNamespace x ns := by
  obtain ⟨w, hw, e⟩ := execute_context (pwd := pwd) (s := s) hc hs
  generalize hn : b!"listVariablesOfNamespace:" = name at hw
  generalize hl : [ns] = args at hw
  cases hw with
  | @listOf n hi =>
    cases hl
    refine ⟨_, ⟨_, e, sameData_record _ _ _⟩, ?_, fun x => ?_⟩
    · have := List.pairwise_map.1 (filter_asc (fun k => startsWith k (ns ++ b!"::")) _ (reachable_inv hc).asc)
      exact List.pairwise_map.2 (this.imp fun {a b} h => by rw [strLt_eq] at h; simpa using h)
    · simp only [List.mem_map, List.mem_filter]
      constructor
      · rintro ⟨v, ⟨h1, h2⟩, rfl⟩
        have hv := ((reachable_inv hc).vars v h1).1
        exact ⟨⟨v.2, lookup_of_mem (reachable_inv hc).asc h1⟩, (startsWith_ns hv hns).1 h2⟩
      · rintro ⟨⟨i, h1⟩, h2⟩
        exact ⟨(x, i), ⟨lookup_some_mem h1, (startsWith_ns (inv_variable (reachable_inv hc) h1) hns).2 h2⟩, rfl⟩
  | noMessage h => subst hn; exact absurd rfl (h (b!"listVariablesOfNamespace:", [.namespace]) (by simp [contextSig]))
  | wrongNumber h h' => subst hn; subst hl; simp [contextSig] at h; subst h; simp at h'
  | invalid h _ h' =>
    subst hn; subst hl; simp [contextSig] at h; subst h
    obtain ⟨p, hp, hf⟩ := h'
    simp at hp; subst hp; exact absurd hns hf
  | _ => exact absurd hn (by decide)

/-- C31: `listNamespaces` lists exactly the namespaces in use, once each, in ascending byte order. -/
theorem C31_listNamespaces [StdSort] (hc : Reachable c) (hs : Statement text b!"Context" b!"listNamespaces" []) :
    ∃ xs, JustReplies pwd c s text (listText c!"[" c!"]" xs) ∧ xs.Pairwise (· < ·) ∧
      ∀ x, x ∈ xs ↔ Identifier x ∧ ∃ n i, Holds c n i ∧ InNamespace n x := by
  have e := execute_statement pwd c s _ _ _ _ hs
  rw [executeParsed_context _ _ _ _ (by simp [isContext])] at e
  have hd : dispatch c (contextTable c) b!"listNamespaces" [] = .ret c (c!"[" :: (joinComma (allNamespaces c.vars) ++ [c!"]"])) := rfl
  rw [hd, listText_join] at e
  obtain ⟨ha, hm⟩ := allNamespaces_spec c.vars
  refine ⟨_, ⟨_, e, sameData_record _ _ _⟩, ha.imp fun {a b} h => by rw [strLt_eq] at h; simpa using h, fun x => ?_⟩
  rw [hm]
  constructor
  · rintro ⟨v, hv, hx⟩
    obtain ⟨h1, h2⟩ := (namespacesOf_variable ((reachable_inv hc).vars v hv).1 x).1 hx
    exact ⟨h1, v.1, v.2, lookup_of_mem (reachable_inv hc).asc hv, h2⟩
  · rintro ⟨h1, n, i, h2, h3⟩
    exact ⟨(n, i), lookup_some_mem h2, (namespacesOf_variable (inv_variable (reachable_inv hc) h2) x).2 ⟨h1, h3⟩⟩

/-- The listings of the demonstration context. -/
example [StdSort] : execute [] demo none b!"Context listVariables;" = .done (demo, none, b!"[a::c,a::s,b,d,f,i,t,v]") ∧
    execute [] demo none b!"Context listVariablesOfNamespace: a;" = .done (demo, none, b!"[a::c,a::s]") ∧
    execute [] demo none b!"Context listNamespaces;" = .done (demo, none, b!"[a]") :=
  ⟨by kernel_rfl, by kernel_rfl, by kernel_rfl⟩

/-! ### Every theorem applied to a case -/

example [StdSort] := C25_containers_are_typed (c := demo) (n := b!"d") (i := .dictionary b!"Character" b!"Integer" [(.character c!"k", .integer 1)])
  (by meets) (by meets)
example [StdSort] := C28_only_the_receiver_changes (pwd := []) (s := none) (c := demo) (n := b!"v") (text := b!"v clear;") (name := b!"clear") (args := [])
  (s' := none) (r := b!"null") (c' := { fresh with vars := demo.vars.dropLast ++ [(b!"v", .vector b!"Integer" [])] })
  (by meets) (by meets) (by meets) (by meets)
example [StdSort] := C28_depends_only_on_the_receiver (pwd := []) (pwd' := []) (s := none) (s' := none) (c := demo)
  (d := { fresh with vars := [(b!"i", .integer (-7))] }) (n := b!"i") (text := b!"i add: 3;") (name := b!"add:") (args := [b!"3"]) (by meets)
  (after_reachable (pwd := []) (s := none) (ts := [b!"Integer create: i withValue: -7;"]) fresh_reachable (by kernel_rfl))
  (by meets) (by meets) rfl
  (fun i => Iff.of_eq (congrArg (· = some i) (show demo.vars.lookup b!"i" = [(b!"i", Inst.integer (-7))].lookup b!"i" by decide +kernel)))

theorem createsVector : Creates b!"Vector<Float>" b!"create:" [b!"x"] b!"x" (.vector b!"Float" []) :=
  .vector (w := []) (w' := []) (t := b!"Float") (fun _ h => nomatch h) (by meets) (fun _ h => nomatch h) (by decide) (by meets)
theorem createsInteger (name : Str) (h : name ∈ [b!"create:withValue:", b!"createIfNotExists:withValue:"]) :
    Creates b!"Integer" name [b!"i", b!"5"] b!"i" (.integer 5) :=
  .value (o := .integer 5) (by meets) h (by meets) (by meets)

example [StdSort] := C29_creation_adds_one_variable (pwd := []) (s := none) (c := demo) (n := b!"x") (text := b!"Vector<Float> create: x;")
  (by meets) ⟨b!"Vector<Float>", b!"create:", [b!"x"], by meets, createsVector⟩ (by meets)
example [StdSort] := C29_create_never_overwrites (pwd := []) (s := none) (c := demo) (n := b!"i") (text := b!"Integer create: i withValue: 5;")
  (j := .integer (-7)) (by meets) (by meets) (createsInteger b!"create:withValue:" (by decide)) (by meets) (.inr rfl)
example [StdSort] := C29_createIfNotExists_never_overwrites (pwd := []) (s := none) (c := demo) (n := b!"i")
  (text := b!"Integer createIfNotExists: i withValue: 5;") (j := .integer (-7)) (by meets) (by meets)
  (createsInteger b!"createIfNotExists:withValue:" (by decide)) (by meets) (.inr rfl)
example [StdSort] := C30_delete_removes_exactly_one (pwd := []) (s := none) (c := demo) (n := b!"a::c") (text := b!"Context deleteVariable: a::c;")
  (i := .character c!"x") (by meets) (by meets) (by meets)
example [StdSort] := C30_delete_unknown (pwd := []) (s := none) (c := demo) (n := b!"a::z") (text := b!"Context deleteVariable: a::z;")
  (by meets) (by meets) (by meets) (by meets)
example [StdSort] := C30_delete_namespace (pwd := []) (s := none) (c := demo) (ns := b!"a") (text := b!"Context deleteVariablesOfNamespace: a;")
  (by meets) (by meets) (by meets)
example [StdSort] := C31_listVariables (pwd := []) (s := none) (c := demo) (text := b!"Context listVariables;") (by meets) (by meets)
example [StdSort] := C31_listVariablesOfNamespace (pwd := []) (s := none) (c := demo) (ns := b!"a") (text := b!"Context listVariablesOfNamespace: a;")
  (by meets) (by meets) (by meets)

end Knuckle.Props
