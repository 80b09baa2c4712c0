/-
C50, C51: what the reply to a request depends on, and which clients cannot notice each other.
-/
import Verif.Proofs.Isolation
import Verif.Props.Server

namespace Knuckle.Props

open Spec

variable {pwd : Str} {c c' d : Ctx} {es : List Event} {s s' : Option Session} {log : List Request} {text r : Str}

/-! ### C50 -/

/-- C50: whether a request is defined, its reply, its effect on the session and on the variables it touches depend only on
the settings and the variables it touches. -/
theorem C50_depends_only_on_touched_variables [StdSort] {N : Str → Prop} (hc : Reachable c) (hd : Reachable d)
    (hN : ∀ n, Touches text n → N n) (h : AgreeOn N c d) : SameOn N (execute pwd c s text) (execute pwd d s text) :=
  execute_agreeOn pwd (reachable_inv hc) (reachable_inv hd) s text hN h

/-- C50: a request changes only variables it touches. -/
theorem C50_changes_only_touched_variables [StdSort] {n : Str} (hc : Reachable c) (h : execute pwd c s text = .done (c', s', r))
    (hn : ¬ Touches text n) : ∀ i, Holds c' n i ↔ Holds c n i := by
  intro i
  unfold Holds
  rw [execute_frame (reachable_inv hc) h hn]

/-- C50: requests that touch different variables (and do not change the settings) commute: in either order they have the
same replies and lead to the same variables and settings. -/
theorem C50_independent_requests_commute [StdSort] {c1 c2 : Ctx} {s1 s1' s2 s2' : Option Session} {t1 t2 r1 r2 : Str} (hc : Reachable c)
    (h1 : execute pwd c s1 t1 = .done (c1, s1', r1)) (h2 : execute pwd c1 s2 t2 = .done (c2, s2', r2))
    (hd : ∀ n, Touches t1 n → ¬ Touches t2 n) (n1 : ¬ SetsSetting t1) (n2 : ¬ SetsSetting t2) :
    ∃ d1 d2, execute pwd c s2 t2 = .done (d1, s2', r2) ∧ execute pwd d1 s1 t1 = .done (d2, s1', r1) ∧ SameData c2 d2 := by
  have ic := reachable_inv hc
  have ic1 := exec_inv ic h1
  have ic2 := exec_inv ic1 h2
  have a1 : AgreeOn (fun n => ¬ Touches t1 n) c1 c := agreeOn_of_lookup (execute_cfg ic h1 n1) fun n hn => execute_frame ic h1 hn
  have e1 := execute_agreeOn pwd ic1 ic s2 t2 (N := fun n => ¬ Touches t1 n) (fun n h h' => hd n h' h) a1
  rw [h2] at e1
  cases h3 : execute pwd c s2 t2 with
  | ub => rw [h3] at e1; exact e1.elim
  | done x =>
    obtain ⟨d1, x1, x2⟩ := x
    rw [h3] at e1
    obtain ⟨b1, rfl, rfl⟩ := e1
    have id1 := exec_inv ic h3
    have a2 : AgreeOn (fun n => ¬ Touches t2 n) c d1 :=
      agreeOn_of_lookup (execute_cfg ic h3 n2).symm fun n hn => (execute_frame ic h3 hn).symm
    have e2 := execute_agreeOn pwd ic id1 s1 t1 (N := fun n => ¬ Touches t2 n) hd a2
    rw [h1] at e2
    cases h4 : execute pwd d1 s1 t1 with
    | ub => rw [h4] at e2; exact e2.elim
    | done y =>
      obtain ⟨d2, y1, y2⟩ := y
      rw [h4] at e2
      obtain ⟨b2, rfl, rfl⟩ := e2
      have id2 := exec_inv id1 h4
      refine ⟨d1, d2, rfl, h4, vars_ext _ _ id2.asc ic2.asc fun n => ?_, ?_⟩
      · by_cases ht : Touches t1 n
        · rw [← agreeOn_lookup b2 (hd n ht), ← execute_frame ic1 h2 (hd n ht)]
        · rw [execute_frame id1 h4 ht, ← agreeOn_lookup b1 ht]
      · rw [execute_cfg id1 h4 n1, execute_cfg ic h3 n2, execute_cfg ic1 h2 n2, execute_cfg ic h1 n1]

/-- C50: clients that use disjoint sets of variables cannot notice each other: if the connections in `S` touch only variables
in `N`, and the others touch only variables outside `N` and do not change the settings, then, whatever the schedule, the
connections in `S` get exactly the replies they would get without the others, and their variables are the same in the end. -/
theorem C50_isolation [StdSort] {sv : Server} (hc : Reachable c) (h : Explains pwd c es sv log) (S : Nat → Bool) (N : Str → Prop)
    (hin : ∀ q ∈ log, S q.conn = true → ∀ n, Touches q.line n → N n)
    (hout : ∀ q ∈ log, S q.conn = false → ¬ SetsSetting q.line ∧ ∀ n, Touches q.line n → ¬ N n) :
    ∃ d, Serial pwd c (log.filter fun q => S q.conn) d ∧ AgreeOn N sv.ctx d := serial_isolated hc h.serial S N hin hout

theorem creates_first {t name n : Str} {args : List Str} {i : Inst} (h : Creates t name args n i) : args.head? = some n := by
  cases h <;> rfl

/-- What a creation touches. -/
theorem touches_creation {t name v n : Str} {args : List Str} (hs : Statement text t name args) (ht : IsType t) (hv : args.head? = some v)
    (h : Touches text n) : n = v := by
  have ctx : ¬ IsType b!"Context" := by rw [← isType_iff]; decide
  cases h with
  | message hn h' => obtain ⟨rfl, _⟩ := statement_unique hs h'; exact absurd hn (type_not_variable ht)
  | creation h' =>
    obtain ⟨a, m, l, h1, h2⟩ := h'
    obtain ⟨rfl, rfl, rfl⟩ := statement_unique hs h1
    rw [creates_first h2] at hv; cases hv; rfl
  | delete h' => obtain ⟨rfl, _⟩ := statement_unique hs h'; exact absurd ht ctx
  | deleteNamespace h' => obtain ⟨rfl, _⟩ := statement_unique hs h'; exact absurd ht ctx
  | listNamespace h' => obtain ⟨rfl, _⟩ := statement_unique hs h'; exact absurd ht ctx
  | listVariables h' => obtain ⟨rfl, _⟩ := statement_unique hs h'; exact absurd ht ctx
  | listNamespaces h' => obtain ⟨rfl, _⟩ := statement_unique hs h'; exact absurd ht ctx

/-- What a message to a variable touches. -/
theorem touches_message {v name n : Str} {args : List Str} (hs : Statement text v name args) (hv : Variable v)
    (h : Touches text n) : n = v := by
  have ctx : ¬ Variable b!"Context" := by rw [← isVariable_iff]; decide
  cases h with
  | message hn h' => obtain ⟨rfl, _⟩ := statement_unique hs h'; rfl
  | creation h' =>
    obtain ⟨a, m, l, h1, h2⟩ := h'
    obtain ⟨rfl, rfl, rfl⟩ := statement_unique hs h1
    exact absurd hv (type_not_variable (creates_creation h2).1)
  | delete h' => obtain ⟨rfl, _⟩ := statement_unique hs h'; exact absurd hv ctx
  | deleteNamespace h' => obtain ⟨rfl, _⟩ := statement_unique hs h'; exact absurd hv ctx
  | listNamespace h' => obtain ⟨rfl, _⟩ := statement_unique hs h'; exact absurd hv ctx
  | listVariables h' => obtain ⟨rfl, _⟩ := statement_unique hs h'; exact absurd hv ctx
  | listNamespaces h' => obtain ⟨rfl, _⟩ := statement_unique hs h'; exact absurd hv ctx

/-- Two clients, each with its own namespace, and interleaved requests. -/
def twoClients : List Event := [
  .accept, .accept, .recv 0 b!"Integer create: a::i withValue: 1;\na::i get;\n", .recv 1 b!"Integer create: b::i withValue: 2;\n",
  .read 0, .read 1, .wrote 1, .wrote 0, .read 0]

def twoClientsLog : List Request := [
  ⟨0, b!"Integer create: a::i withValue: 1;", b!"null"⟩, ⟨1, b!"Integer create: b::i withValue: 2;", b!"null"⟩, ⟨0, b!"a::i get;", b!"1"⟩]

def twoClientsServer : Server :=
  ⟨[], { fresh with vars := [(b!"a::i", .integer 1), (b!"b::i", .integer 2)] }, [
    ⟨⟨true, true⟩, [], .writing b!"1", b!"null\n"⟩, ⟨⟨true, true⟩, [], .reading, b!"null\n"⟩], true⟩

theorem twoClients_run [StdSort] : run (Server.init [] fresh) twoClients = some (.done twoClientsServer) := by kernel_rfl

/-- The hypotheses of `C50_isolation` are met by the log of that schedule, with the clients' namespaces. -/
example [StdSort] : (∀ q ∈ twoClientsLog, (q.conn == 0) = true → ∀ n, Touches q.line n → InNamespace n b!"a") ∧
    (∀ q ∈ twoClientsLog, (q.conn == 0) = false → ¬ SetsSetting q.line ∧ ∀ n, Touches q.line n → ¬ InNamespace n b!"a") := by
  have h1 : Statement b!"Integer create: a::i withValue: 1;" b!"Integer" b!"create:withValue:" [b!"a::i", b!"1"] := reads (by decide +kernel)
  have h2 : Statement b!"Integer create: b::i withValue: 2;" b!"Integer" b!"create:withValue:" [b!"b::i", b!"2"] := reads (by decide +kernel)
  have h3 : Statement b!"a::i get;" b!"a::i" b!"get" [] := reads (by decide +kernel)
  have hI : IsType b!"Integer" := (isType_iff _).1 (by decide)
  have hi : InNamespace b!"a::i" b!"a" := ⟨b!"i", (isIdentifier_iff _).1 (by decide), rfl⟩
  have hb : ¬ InNamespace b!"b::i" b!"a" := by rintro ⟨x, _, e⟩; revert e; simp
  refine ⟨fun q hq hc n hn => ?_, fun q hq hc => ?_⟩
  · simp only [twoClientsLog, List.mem_cons, List.not_mem_nil, or_false] at hq
    rcases hq with rfl | rfl | rfl
    · rw [touches_creation h1 hI rfl hn]; exact hi
    · cases hc
    · rw [touches_message h3 ((isVariable_iff _).1 (by decide)) hn]; exact hi
  · simp only [twoClientsLog, List.mem_cons, List.not_mem_nil, or_false] at hq
    rcases hq with rfl | rfl | rfl
    · cases hc
    · refine ⟨?_, fun n hn => by rw [touches_creation h2 hI rfl hn]; exact hb⟩
      rintro (h | h)
      · have := (statement_unique h2 h).1; revert this; decide
      · have := (statement_unique h2 h).1; revert this; decide
    · cases hc

/-! ### C51 -/

/-- C51: logging has no influence on service: two contexts with the same variables and settings, whatever their log files,
quiet flags and logs so far, answer every request in the same way. -/
theorem C51_logging_does_not_matter [StdSort] (h : SameData c d) : SameEffect (execute pwd c s text) (execute pwd d s text) :=
  execute_sameData pwd s text h

/-- C51: the same for whole executions: with other log settings the same lines get the same replies. -/
theorem C51_logging_never_matters [StdSort] (h : Serial pwd c log c') (hd : SameData c d) :
    ∃ d', Serial pwd d log d' ∧ SameData c' d' := by
  induction h with
  | nil => exact ⟨d, .nil, hd⟩
  | @executed _ _ _ _ line _ t _ _ h1 h2 h3 h4 ih =>
    obtain ⟨x, hx, hs⟩ := ih
    have := execute_sameData pwd (some t) line hs
    rw [h4] at this
    generalize hy : execute pwd x (some t) line = y at this
    cases y with
    | ub => exact this.elim
    | done y =>
      obtain ⟨y1, y2, y3⟩ := y
      obtain ⟨e1, rfl, rfl⟩ := this
      exact ⟨y1, .executed hx h1 h2 h3 hy, e1⟩
  | ignored _ h1 h2 h3 ih =>
    obtain ⟨x, hx, hs⟩ := ih
    exact ⟨x, .ignored hx h1 h2 h3, hs⟩

example : SameData (Ctx.init 3 (.fin false 0) true false) fresh ∧ Ctx.init 3 (.fin false 0) true false ≠ fresh :=
  ⟨⟨rfl, rfl⟩, by decide +kernel⟩

end Knuckle.Props
