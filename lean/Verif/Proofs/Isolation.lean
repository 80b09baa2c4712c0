/-
A request depends only on the variables it touches.
-/
import Verif.Spec.Isolation
import Verif.Proofs.Serial
import Verif.Proofs.Changes

namespace Knuckle

open Spec

/-- The context without the variables outside `N`. -/
abbrev Ctx.only (N : Str → Bool) (c : Ctx) : Ctx := { c with vars := c.vars.filter fun v => N v.1 }

theorem inv_only {c : Ctx} (h : Inv c) (N : Str → Bool) : Inv (c.only N) := by
  refine ⟨?_, fun v hv => h.vars v (List.mem_of_mem_filter hv), h.eps⟩
  exact h.asc.sublist (List.filter_sublist.map _)

theorem only_lookup (N : Str → Bool) (c : Ctx) (n : Str) : (c.only N).vars.lookup n = if N n then c.vars.lookup n else none :=
  filter_lookup N c.vars n

/-- `text` touches only variables in `N`. -/
def Within (N : Str → Bool) (text : Str) : Prop := ∀ n, Touches text n → N n = true

theorem updateVar_filter (N : Str → Bool) (n : Str) (i : Inst) (l : List (Str × Inst)) (h : N n = true) :
    updateVar n i (l.filter fun v => N v.1) = (updateVar n i l).filter fun v => N v.1 := by
  induction l with
  | nil => rfl
  | cons x xs ih =>
    simp only [updateVar]
    by_cases hx : x.1 = n
    · have : N x.1 = true := by rw [hx]; exact h
      simp only [hx, beq_self_eq_true, if_true, List.filter_cons, h, updateVar, if_true]
    · simp only [beq_false_of_ne hx, Bool.false_eq_true, if_false, List.filter_cons]
      split
      · simp only [updateVar, beq_false_of_ne hx, Bool.false_eq_true, if_false, ih]
      · exact ih

theorem executeInVariable_only [StdSort] (N : Str → Bool) {c : Ctx} (hc : Inv c) (p : Parsed) (h : N p.actor = true) :
    executeInVariable (c.only N) p = (executeInVariable c p).mapS (Ctx.only N) := by
  unfold executeInVariable
  rw [(inv_only hc N).find, hc.find, only_lookup, h]
  simp only [if_true]
  cases c.vars.lookup p.actor with
  | none => rfl
  | some i =>
    simp only []
    cases receive c.cfg i p.name p.args with
    | ub => rfl
    | ret a r => simp only [Run.mapS, Ctx.only, updateVar_filter N _ _ _ h]
    | thr a r => simp only [Run.mapS, Ctx.only, updateVar_filter N _ _ _ h]

theorem mapInsert_filter (N : Str → Bool) (n : Str) (i : Inst) (l : List (Str × Inst)) (ha : Asc strLt (l.map (·.1))) (h : N n = true) :
    mapInsert strLt n i (l.filter fun v => N v.1) = (mapInsert strLt n i l).filter fun v => N v.1 := by
  have hf : Asc strLt ((l.filter fun v => N v.1).map (·.1)) := ha.sublist (List.filter_sublist.map _)
  refine vars_ext _ _ (mapInsert_asc _ _ _ hf) ((mapInsert_asc _ _ _ ha).sublist (List.filter_sublist.map _)) fun m => ?_
  rw [mapInsert_lookup _ _ _ hf, filter_lookup, filter_lookup, mapInsert_lookup _ _ _ ha]
  by_cases hm : m = n
  · subst hm; simp [h]
  · simp [hm]

theorem executeInType_only [StdSort] (N : Str → Bool) {c : Ctx} (hc : Inv c) (p : Parsed) (ht : IsType p.actor)
    (h : ∀ n i, Creates p.actor p.name p.args n i → N n = true) :
    executeInType (c.only N) p = (executeInType c p).mapS (Ctx.only N) := by
  unfold executeInType
  refine run_mapS (Ctx.only N) _ _ c ?_
  have hm := makeInstance_cases p.actor p.name p.args ht
  generalize hy : makeInstance p.actor p.name p.args = y at hm
  cases y with
  | ub => rfl
  | err e => rfl
  | ok o =>
    cases o with
    | none => rfl
    | some x =>
      obtain ⟨n, i⟩ := x
      have hn : N n = true := by
        rcases hm with ⟨_, h1⟩ | ⟨ks, _, ⟨_, h1⟩ | ⟨_, _, h1⟩ | ⟨_, _, h1⟩ | ⟨_, _, m, j, hcr, h1⟩⟩ <;> cases h1
        exact h n i hcr
      simp only [Res.bind_ok]
      rw [(inv_only hc N).find, hc.find, only_lookup, hn]
      simp only [if_true]
      cases hl : c.vars.lookup n with
      | none => simp only [Res.mapS, Ctx.only, mapInsert_filter N _ _ _ hc.asc hn]
      | some j => simp only []; split <;> rfl

theorem op1_mapS {σ τ : Type} (f : σ → τ) (old : σ) (g : Str → Res (σ × Str)) (g' : Str → Res (τ × Str)) (args : List Str)
    (h : ∀ a, args = [a] → g' a = (g a).mapS f) : op1 (f old) g' args = (op1 old g args).mapS f := by
  match args with
  | [] => rfl
  | [a] => exact run_mapS f _ _ old (h a rfl)
  | _ :: _ :: _ => rfl

/-- Entry by entry. -/
theorem dispatch_cons_mapS {σ τ : Type} (f : σ → τ) (old : σ) (n : Str) (op : List Str → Run σ) (op' : List Str → Run τ) (t : Table σ)
    (t' : Table τ) (name : Str) (args : List Str) (h1 : name = n → op' args = (op args).mapS f)
    (h2 : dispatch (f old) t' name args = (dispatch old t name args).mapS f) :
    dispatch (f old) ((n, op') :: t') name args = (dispatch old ((n, op) :: t) name args).mapS f := by
  simp only [dispatch]
  by_cases h : name = n
  · rw [h, beq_self_eq_true, if_pos rfl, if_pos rfl]; exact h1 h
  · rw [beq_false_of_ne h]; exact h2

theorem contextTable_only (N : Str → Bool) {c : Ctx} (hc : Inv c) (text name : Str) (args : List Str)
    (hs : Statement text b!"Context" name args) (h : Within N text) :
    dispatch (c.only N) (contextTable (c.only N)) name args = (dispatch c (contextTable c) name args).mapS (Ctx.only N) := by
  unfold contextTable
  have all : (∀ n, N n = true) → c.only N = c := by
    intro h; simp only [Ctx.only, h, List.filter_true]
  refine dispatch_cons_mapS (Ctx.only N) c _ _ _ _ _ name args (fun hname => ?_) ?_
  · subst name
    match args with
    | [] => rw [all fun n => h n (.listNamespaces hs)]
            simp only [opListNamespaces, op0, Res.run, Run.mapS, all fun n => h n (.listNamespaces hs)]
    | _ :: _ => rfl
  refine dispatch_cons_mapS (Ctx.only N) c _ _ _ _ _ name args (fun hname => ?_) ?_
  · subst name
    match args with
    | [] => rw [all fun n => h n (.listVariables hs)]
            simp only [opListVariables, op0, Res.run, Run.mapS, all fun n => h n (.listVariables hs)]
    | _ :: _ => rfl
  refine dispatch_cons_mapS (Ctx.only N) c _ _ _ _ _ name args (fun hname => ?_) ?_
  · subst name
    refine op1_mapS (Ctx.only N) c _ _ _ fun a ha => ?_
    subst ha
    cases hi : isNamespace a with
    | false => rfl
    | true =>
      have hid : Identifier a := (isIdentifier_iff a).1 hi
      simp only [Bool.not_true, Bool.false_eq_true, if_false, Res.mapS]
      have key := listOfNamespaceLoop_eq (a ++ b!"::") (by simp)
      have k1 := key c.vars [] (by simp)
      have k2 := key (c.only N).vars [] (by simp)
      have e : ((c.only N).vars.filter fun v => startsWith v.1 (a ++ b!"::")) = c.vars.filter fun v => startsWith v.1 (a ++ b!"::") := by
        simp only [List.filter_filter]
        refine List.filter_congr fun v hv => ?_
        cases hst : startsWith v.1 (a ++ b!"::") with
        | false => rfl
        | true => rw [h v.1 (.listNamespace hs ((startsWith_ns (hc.vars v hv).1 hid).1 hst))]; rfl
      rw [e] at k2
      rw [← k1] at k2
      exact congrArg (fun x => Res.ok (c.only N, c!"[" :: (x ++ [c!"]"]))) k2
  refine dispatch_cons_mapS (Ctx.only N) c _ _ _ _ _ name args (fun hname => ?_) ?_
  · subst name
    refine op1_mapS (Ctx.only N) c _ _ _ fun a ha => ?_
    subst ha
    cases isVariable a with
    | false => rfl
    | true =>
      have hN := h a (.delete hs)
      simp only [Bool.not_true, Bool.false_eq_true, if_false]
      rw [eraseName_eq a _ (inv_only hc N).asc, eraseName_eq a _ hc.asc]
      have hm : a ∈ ((c.only N).vars.map (·.1)) ↔ a ∈ c.vars.map (·.1) := by
        simp only [List.mem_map, List.mem_filter]
        constructor
        · rintro ⟨v, ⟨h1, _⟩, h3⟩; exact ⟨v, h1, h3⟩
        · rintro ⟨v, h1, h3⟩; exact ⟨v, ⟨h1, by rw [h3]; exact hN⟩, h3⟩
      by_cases hx : a ∈ c.vars.map (·.1)
      · rw [if_pos (hm.2 hx), if_pos hx]
        simp only [Res.mapS, Ctx.only, List.filter_filter, Bool.and_comm]
      · rw [if_neg (mt hm.1 hx), if_neg hx]; rfl
  refine dispatch_cons_mapS (Ctx.only N) c _ _ _ _ _ name args (fun hname => ?_) ?_
  · refine op1_mapS (Ctx.only N) c _ _ _ fun a _ => ?_
    cases isNamespace a with
    | false => rfl
    | true =>
      simp only [Bool.not_true, Bool.false_eq_true, if_false, Res.mapS, Ctx.only, List.filter_filter, Bool.and_comm]
  refine dispatch_cons_mapS (Ctx.only N) c _ _ _ _ _ name args (fun hname => ?_) ?_
  · rfl
  refine dispatch_cons_mapS (Ctx.only N) c _ _ _ _ _ name args (fun hname => ?_) ?_
  · refine op1_mapS (Ctx.only N) c _ _ _ fun a _ => ?_
    cases integerLit a with
    | ok p => simp only [Res.bind_ok]; split <;> rfl
    | err e => rfl
    | ub => rfl
  refine dispatch_cons_mapS (Ctx.only N) c _ _ _ _ _ name args (fun hname => ?_) ?_
  · rfl
  refine dispatch_cons_mapS (Ctx.only N) c _ _ _ _ _ name args (fun hname => ?_) ?_
  · refine op1_mapS (Ctx.only N) c _ _ _ fun a _ => ?_
    cases floatLit a with
    | ok p => simp only [Res.bind_ok]; split <;> rfl
    | err e => rfl
    | ub => rfl
  · rfl

/-- What an execution did, seen through a function of the context. -/
def Outcome.mapC (f : Ctx → Ctx) : Outcome (Ctx × Option Session × Str) → Outcome (Ctx × Option Session × Str)
  | .done (c, s, r) => .done (f c, s, r)
  | .ub => .ub

theorem record_only (N : Str → Bool) (c : Ctx) (a b : Str) : (c.only N).record a b = (c.record a b).only N := by
  unfold Ctx.record; simp only []; split
  · rfl
  split <;> rfl

theorem finish_only (N : Str → Bool) (text : Str) (r : Run (Ctx × Option Session)) :
    finish text (r.mapS fun x => (x.1.only N, x.2)) = (finish text r).mapC (Ctx.only N) := by
  rcases r with ⟨⟨x, t⟩, o⟩ | ⟨⟨x, t⟩, o⟩ | _
  · simp only [Run.mapS, finish, Outcome.mapC, record_only]
  · simp only [Run.mapS, finish, Outcome.mapC, record_only]
  · rfl

theorem onCtx_only (N : Str → Bool) (s : Option Session) (r : Run Ctx) :
    onCtx s (r.mapS (Ctx.only N)) = (onCtx s r).mapS fun x => (x.1.only N, x.2) := by
  cases r <;> rfl

/-- Variables that a request does not touch might as well not exist. -/
theorem execute_only [StdSort] (pwd : Str) (N : Str → Bool) {c : Ctx} (hc : Inv c) (s : Option Session) (text : Str) (h : Within N text) :
    execute pwd (c.only N) s text = (execute pwd c s text).mapC (Ctx.only N) := by
  by_cases hst : ∃ a n l, Statement text a n l
  · obtain ⟨a, n, l, hs⟩ := hst
    rw [execute_statement pwd c s _ _ _ _ hs, execute_statement pwd _ s _ _ _ _ hs, ← finish_only]
    congr 1
    rcases statement_actor _ _ _ _ hs with hA | hA | hA | hA
    · subst hA
      rw [executeParsed_connection _ _ _ _ (by simp [isConnection]), executeParsed_connection _ _ _ _ (by simp [isConnection])]
      cases s with
      | none => rfl
      | some x => simp only []; cases x.receive pwd n l <;> rfl
    · subst hA
      rw [executeParsed_context _ _ _ _ (by simp [isContext]), executeParsed_context _ _ _ _ (by simp [isContext]), ← onCtx_only]
      congr 1
      exact contextTable_only N hc text n l hs h
    · rw [executeParsed_type _ _ _ _ ((isType_iff _).2 hA), executeParsed_type _ _ _ _ ((isType_iff _).2 hA), ← onCtx_only]
      congr 1
      exact executeInType_only N hc _ hA fun v i hcr => h v (.creation ⟨a, n, l, hs, hcr⟩)
    · rw [executeParsed_variable _ _ _ _ ((isVariable_iff _).2 hA), executeParsed_variable _ _ _ _ ((isVariable_iff _).2 hA), ← onCtx_only]
      congr 1
      exact executeInVariable_only N hc _ (h a (.message hA hs))
  · rw [execute_not_statement pwd _ s text hst, execute_not_statement pwd _ s text hst, record_only]; rfl

/-! ### Agreement -/

theorem agreeOn_lookup {N : Str → Prop} {c d : Ctx} (h : AgreeOn N c d) {n : Str} (hn : N n) : c.vars.lookup n = d.vars.lookup n := by
  cases h1 : c.vars.lookup n with
  | some i => exact ((h.2 n hn i).1 h1).symm
  | none => cases h2 : d.vars.lookup n with
    | none => rfl
    | some i => rw [(h.2 n hn i).2 h2] at h1; cases h1

theorem agreeOn_of_lookup {N : Str → Prop} {c d : Ctx} (h : c.cfg = d.cfg) (h' : ∀ n, N n → c.vars.lookup n = d.vars.lookup n) :
    AgreeOn N c d := ⟨h, fun n hn i => by rw [h' n hn]⟩

theorem agreeOn_trans {N : Str → Prop} {a b c : Ctx} (h : AgreeOn N a b) (h' : AgreeOn N b c) : AgreeOn N a c :=
  ⟨h.1.trans h'.1, fun n hn i => (h.2 n hn i).trans (h'.2 n hn i)⟩

theorem agreeOn_symm {N : Str → Prop} {a b : Ctx} (h : AgreeOn N a b) : AgreeOn N b a := ⟨h.1.symm, fun n hn i => (h.2 n hn i).symm⟩

open Classical in
theorem agreeOn_only {N : Str → Prop} {c d : Ctx} (hc : Inv c) (hd : Inv d) :
    AgreeOn N c d ↔ SameData (c.only fun n => decide (N n)) (d.only fun n => decide (N n)) := by
  constructor
  · intro h
    refine ⟨vars_ext _ _ (inv_only hd _).asc (inv_only hc _).asc fun n => ?_, h.1.symm⟩
    rw [only_lookup, only_lookup]
    by_cases hn : N n
    · simp [hn, agreeOn_lookup h hn]
    · simp [hn]
  · rintro ⟨h1, h2⟩
    refine agreeOn_of_lookup h2.symm fun n hn => ?_
    have := congrArg (List.lookup n) h1
    rw [only_lookup, only_lookup] at this
    simpa [hn] using this.symm

open Classical in
/-- Requests depend only on the settings and the variables they touch. -/
theorem execute_agreeOn [StdSort] (pwd : Str) {N : Str → Prop} {c d : Ctx} (hc : Inv c) (hd : Inv d) (s : Option Session) (text : Str)
    (hN : ∀ n, Touches text n → N n) (h : AgreeOn N c d) : SameOn N (execute pwd c s text) (execute pwd d s text) := by
  have hw : Within (fun n => decide (N n)) text := fun n hn => by simp [hN n hn]
  have h1 := execute_sameData pwd s text ((agreeOn_only hc hd).1 h)
  rw [execute_only pwd _ hc s text hw, execute_only pwd _ hd s text hw] at h1
  cases h2 : execute pwd c s text with
  | ub =>
    rw [h2] at h1
    cases h3 : execute pwd d s text with
    | ub => trivial
    | done y => obtain ⟨d', s'', r'⟩ := y; rw [h3] at h1; exact h1.elim
  | done x =>
    obtain ⟨c', s', r⟩ := x
    rw [h2] at h1
    cases h3 : execute pwd d s text with
    | ub => rw [h3] at h1; exact h1.elim
    | done y =>
      obtain ⟨d', s'', r'⟩ := y
      rw [h3] at h1
      exact ⟨(agreeOn_only (exec_inv hc h2) (exec_inv hd h3)).2 h1.1, h1.2⟩

/-- Requests change only variables they touch. -/
theorem execute_frame [StdSort] {pwd : Str} {c c' : Ctx} (hc : Inv c) {s s' : Option Session} {text r : Str}
    (h : execute pwd c s text = .done (c', s', r)) {n : Str} (hn : ¬ Touches text n) : c'.vars.lookup n = c.vars.lookup n := by
  obtain ⟨x, rfl, hd | ⟨e, hd, rfl⟩⟩ := execute_done hc h
  · rw [record_vars]
    rcases does_lookup hc hd n with h1 | ⟨⟨i, hi⟩, h1⟩ | ⟨_, i, h1, _⟩
    · exact h1
    · refine absurd ?_ hn
      cases h1 with
      | message h2 => exact .message (hc.vars _ (lookup_some_mem hi)).1 h2
      | delete h2 => exact .delete h2
      | deleteNamespace h2 h3 => exact .deleteNamespace h2 h3
    · exact absurd (.creation h1) hn
  · rw [record_vars, (does_thr hd).1]

theorem execute_cfg [StdSort] {pwd : Str} {c c' : Ctx} (hc : Inv c) {s s' : Option Session} {text r : Str}
    (h : execute pwd c s text = .done (c', s', r)) (hn : ¬ SetsSetting text) : c'.cfg = c.cfg := by
  obtain ⟨x, rfl, hd | ⟨e, hd, rfl⟩⟩ := execute_done hc h
  · rw [record_cfg]; exact (does_cfg hd).resolve_right hn
  · rw [record_cfg, (does_thr hd).1]

/-! ### Logs -/

theorem authenticated_filter' {pwd : Str} {log : List Request} {S : Nat → Bool} {j : Nat} (h : S j = true) :
    Authenticated pwd (log.filter fun q => S q.conn) j ↔ Authenticated pwd log j := by
  unfold Authenticated
  refine or_congr Iff.rfl ⟨?_, ?_⟩
  · rintro ⟨q, hq, h1⟩; exact ⟨q, List.mem_of_mem_filter hq, h1⟩
  · rintro ⟨q, hq, h1, h2⟩; exact ⟨q, List.mem_filter.2 ⟨hq, by simp [h1, h]⟩, h1, h2⟩

theorem closed_filter' {log : List Request} {S : Nat → Bool} {j : Nat} (h : S j = true) :
    Closed (log.filter fun q => S q.conn) j ↔ Closed log j := by
  unfold Closed
  constructor
  · rintro ⟨q, hq, h1⟩; exact ⟨q, List.mem_of_mem_filter hq, h1⟩
  · rintro ⟨q, hq, h1, h2⟩; exact ⟨q, List.mem_filter.2 ⟨hq, by simp [h1, h]⟩, h1, h2⟩

theorem serial_isolated [StdSort] {pwd : Str} {c c' : Ctx} {log : List Request} (hc : Reachable c) (h : Serial pwd c log c')
    (S : Nat → Bool) (N : Str → Prop) (hin : ∀ q ∈ log, S q.conn = true → ∀ n, Touches q.line n → N n)
    (hout : ∀ q ∈ log, S q.conn = false → ¬ SetsSetting q.line ∧ ∀ n, Touches q.line n → ¬ N n) :
    ∃ d, Serial pwd c (log.filter fun q => S q.conn) d ∧ AgreeOn N c' d := by
  induction log using List.reverseRecOn generalizing c' with
  | nil =>
    generalize hl : ([] : List Request) = l at h
    cases h with
    | nil => exact ⟨c, .nil, rfl, fun _ _ _ => Iff.rfl⟩
    | _ => simp at hl
  | append_singleton log q ih =>
    obtain ⟨d, hd, hcl, hq⟩ := serial_snoc h
    obtain ⟨x, hx, hsx⟩ := ih hd (fun q hq => hin q (by simp [hq])) (fun q hq => hout q (by simp [hq]))
    have hid := reachable_inv (serial_reachable hc hd)
    have hix := reachable_inv (serial_reachable hc hx)
    rw [List.filter_append]
    cases hi : S q.conn with
    | false =>
      have : [q].filter (fun q => S q.conn) = [] := by simp [hi]
      rw [this, List.append_nil]
      refine ⟨x, hx, ?_⟩
      rcases hq with ⟨s, s', h1, h2, h3⟩ | ⟨_, _, _, rfl⟩
      · obtain ⟨n1, n2⟩ := hout q (by simp) hi
        refine agreeOn_trans (agreeOn_of_lookup (execute_cfg hid h3 n1) fun n hn => ?_) hsx
        exact execute_frame hid h3 fun ht => n2 n ht hn
      · exact hsx
    | true =>
      have : [q].filter (fun q => S q.conn) = [q] := by simp [hi]
      rw [this]
      have hcl' := mt (closed_filter' hi).1 hcl
      rcases hq with ⟨s, s', h1, h2, h3⟩ | ⟨h1, h2, h3, rfl⟩
      · have hs := execute_agreeOn pwd hid hix (some s) q.line (hin q (by simp) hi) hsx
        rw [h3] at hs
        cases he : execute pwd x (some s) q.line with
        | ub => rw [he] at hs; exact hs.elim
        | done y =>
          obtain ⟨y1, y2, y3⟩ := y
          rw [he] at hs
          obtain ⟨e1, e2, e3⟩ := hs
          subst e2 e3
          refine ⟨y1, .executed hx hcl' ?_ (h2.imp_left (authenticated_filter' hi).2) he, e1⟩
          unfold SessionAfter
          rw [authenticated_filter' hi, closed_filter' hi]; exact h1
      · obtain ⟨a, b, r⟩ := q
        simp only at h3
        subst h3
        exact ⟨x, .ignored hx hcl' (mt (authenticated_filter' hi).1 h1) h2, hsx⟩

end Knuckle
