/-
C119: two variables cannot be changed at once.

`Serial pwd c log c'` is what C44 provides for every schedule of the server.
-/
import Verif.Props.Still
import Verif.Props.Variables
import Verif.Spec.Halfway

namespace Knuckle.Props

open Spec

variable {pwd : Str} {c c' d : Ctx} {s s' : Option Session} {text r m n : Str} {l l' l1 l2 log : List Request} {q : Request}

theorem unchanged_iff : Unchanged c d n ↔ d.vars.lookup n = c.vars.lookup n := by
  unfold Unchanged Holds
  constructor
  · intro h
    cases h1 : c.vars.lookup n with
    | some i => exact (h i).1 h1
    | none =>
      cases h2 : d.vars.lookup n with
      | none => rfl
      | some i => rw [(h i).2 h2] at h1; cases h1
  · intro h i; rw [h]

theorem creates_shape {a name : Str} {args : List Str} {i : Inst} (h : Creates a name args n i) :
    args.head? = some n ∧ name ∈ [b!"create:withValue:", b!"createIfNotExists:withValue:", b!"create:", b!"createIfNotExists:"] := by
  cases h <;> refine ⟨rfl, ?_⟩ <;> simp_all <;> tauto

/-- What is concerned, as a statement: its receiver is the variable, or its argument. -/
theorem changes_shape [StdSort] (hc : Reachable c) (h : execute pwd c s text = .done (c', s', r)) (hn : ¬ Unchanged c c' n) :
    (Variable n ∧ ∃ name args, Statement text n name args) ∨ (∃ args, Statement text b!"Context" b!"deleteVariable:" args ∧ args = [n]) ∨
      (∃ ns, Statement text b!"Context" b!"deleteVariablesOfNamespace:" [ns] ∧ InNamespace n ns) ∨
      ∃ a name args, Statement text a name args ∧ args.head? = some n ∧
        name ∈ [b!"create:withValue:", b!"createIfNotExists:withValue:", b!"create:", b!"createIfNotExists:"] := by
  rw [unchanged_iff] at hn
  obtain ⟨x, rfl, hd | ⟨e, hd, rfl⟩⟩ := execute_done (reachable_inv hc) h
  · rw [record_vars] at hn
    rcases does_lookup (reachable_inv hc) hd n with h1 | ⟨⟨j, h1⟩, h2⟩ | ⟨h1, i, ⟨a, name, args, hs, hcr⟩, _⟩
    · exact absurd h1 hn
    · cases h2 with
      | message hs => exact .inl ⟨holds_variable hc h1, _, _, hs⟩
      | delete hs => exact .inr (.inl ⟨_, hs, rfl⟩)
      | deleteNamespace hs hi => exact .inr (.inr (.inl ⟨_, hs, hi⟩))
    · exact .inr (.inr (.inr ⟨a, name, args, hs, creates_shape hcr⟩))
  · obtain ⟨rfl, rfl⟩ := does_thr hd
    rw [record_vars] at hn
    exact absurd rfl hn

/-- C119: a request changes at most one variable (which is created, changed or deleted), unless it deletes the variables of a namespace. -/
theorem C119_one [StdSort] (hc : Reachable c) (h : execute pwd c s text = .done (c', s', r)) (hmn : m ≠ n) (hm : ¬ Unchanged c c' m) (hn : ¬ Unchanged c c' n) :
    DeletesBoth text m n := by
  have one : ∀ {m n : Str}, m ≠ n → ¬ Unchanged c c' m → (Variable n ∧ ∃ name args, Statement text n name args) → False := by
    rintro m n hmn hm ⟨hv, name, args, hs⟩
    exact hm fun i => ((C28_only_the_receiver_changes hc hv hs h).2.2 m hmn i).symm
  rcases changes_shape hc h hn with hv | ⟨as, hs, rfl⟩ | ⟨ns, hs, hi⟩ | ⟨a, nm, as, hs, he, hnm⟩
  · exact (one hmn hm hv).elim
  all_goals rcases changes_shape hc h hm with hv' | ⟨as', hs', e'⟩ | ⟨ns', hs', hi'⟩ | ⟨a', nm', as', hs', he', hnm'⟩
  all_goals first | exact (one hmn.symm hn hv').elim | (obtain ⟨_, e1, e2⟩ := statement_unique hs hs')
  · rw [e'] at e2; exact absurd (List.cons.inj e2).1.symm hmn
  · exact absurd e1 (by decide)
  · rw [← e1] at hnm'; exact absurd hnm' (by decide)
  · exact absurd e1 (by decide)
  · obtain rfl := (List.cons.inj e2).1
    exact ⟨_, hs, hi', hi⟩
  · rw [← e1] at hnm'; exact absurd hnm' (by decide)
  · rw [e1] at hnm; exact absurd hnm (by decide)
  · rw [e1] at hnm; exact absurd hnm (by decide)
  · rw [e2, he'] at he
    exact absurd (Option.some.inj he) hmn

/-- C119: so if two variables have changed in a history, there was a moment when only one of them had: nobody can change both without giving others the
opportunity to see it halfway, except by deleting them with their namespace. -/
theorem C119_halfway [StdSort] (hc : Reachable c) (h : Serial pwd c log c') (hmn : m ≠ n) (hm : ¬ Unchanged c c' m) (hn : ¬ Unchanged c c' n)
    (hd : ∀ q ∈ log, q.accepted → ¬ DeletesBoth q.line m n) :
    ∃ l1 l2 d, log = l1 ++ l2 ∧ Serial pwd c l1 d ∧ (Unchanged c d m ∧ ¬ Unchanged c d n ∨ ¬ Unchanged c d m ∧ Unchanged c d n) := by
  induction log using List.reverseRecOn generalizing c' with
  | nil =>
    generalize hl : ([] : List Request) = l at h
    cases h with
    | nil => exact absurd (fun _ => Iff.rfl) hm
    | executed => simp at hl
    | ignored => simp at hl
  | append_singleton log q ih =>
    obtain ⟨x, hx, _, hq⟩ := serial_snoc h
    by_cases h1 : Unchanged c x m <;> by_cases h2 : Unchanged c x n
    · exfalso
      rcases hq with ⟨s, s', _, _, he⟩ | ⟨_, _, _, rfl⟩
      · have h3 : ¬ Unchanged x c' m := fun h => hm fun i => (h1 i).trans (h i)
        have h4 : ¬ Unchanged x c' n := fun h => hn fun i => (h2 i).trans (h i)
        refine hd q (by simp) (fun hr => ?_) (C119_one (serial_reachable hc hx) he hmn h3 h4)
        exact h3 (unchanged_iff.2 (by rw [(C32_refused_requests_change_nothing (serial_reachable hc hx) he hr).1.1]))
      · exact hm h1
    · exact ⟨log, [q], x, rfl, hx, .inl ⟨h1, h2⟩⟩
    · exact ⟨log, [q], x, rfl, hx, .inr ⟨h1, h2⟩⟩
    · obtain ⟨l1, l2, d, rfl, h3⟩ := ih hx h1 h2 fun q hq => hd q (List.mem_append_left _ hq)
      exact ⟨l1, l2 ++ [q], d, by simp, h3⟩

/-- C119: for every schedule of the server. -/
theorem C119_server [StdSort] {es : List Event} {s : Server} (hc : Reachable c) (h : run (Server.init pwd c) es = some (.done s)) :
    ∃ log, Explains pwd c es s log ∧ ∀ m n, m ≠ n → ¬ Unchanged c s.ctx m → ¬ Unchanged c s.ctx n → (∀ q ∈ log, q.accepted → ¬ DeletesBoth q.line m n) →
      ∃ l1 l2 d, log = l1 ++ l2 ∧ Serial pwd c l1 d ∧ (Unchanged c d m ∧ ¬ Unchanged c d n ∨ ¬ Unchanged c d m ∧ Unchanged c d n) := by
  obtain ⟨log, hl⟩ := C44_serialized hc h
  exact ⟨log, hl, fun m n hmn hm hn hd => C119_halfway hc hl.serial hmn hm hn hd⟩

/-! ### Cases -/

def payStart : Ctx := { fresh with vars := [(b!"x::a", .integer 10), (b!"x::b", .integer 0)] }
def payEnd : Ctx := { fresh with vars := [(b!"x::a", .integer 7), (b!"x::b", .integer 3)] }

theorem payStart_reachable [StdSort] : Reachable payStart :=
  after_reachable (pwd := []) (s := none) (ts := [b!"Integer create: x::a withValue: 10;", b!"Integer create: x::b withValue: 0;"]) fresh_reachable (by kernel_rfl)

def payLog : List Request := [⟨0, b!"x::a subtract: 3;", b!"null"⟩, ⟨1, b!"x::b get;", b!"0"⟩, ⟨0, b!"x::b add: 3;", b!"null"⟩]

theorem pay_serial [StdSort] : Serial [] payStart payLog payEnd :=
  serially_serial (ls := [(0, b!"x::a subtract: 3;"), (1, b!"x::b get;"), (0, b!"x::b add: 3;")]) .nil (by simp) (by kernel_rfl)

theorem pay_a : ¬ Unchanged payStart payEnd b!"x::a" := by rw [unchanged_iff]; decide +kernel
theorem pay_b : ¬ Unchanged payStart payEnd b!"x::b" := by rw [unchanged_iff]; decide +kernel

theorem pay_keeps : ∀ q ∈ payLog, q.accepted → ¬ DeletesBoth q.line b!"x::a" b!"x::b" := by
  have h0 : Statement b!"x::a subtract: 3;" b!"x::a" b!"subtract:" [b!"3"] := reads (by kernel_rfl)
  have h1 : Statement b!"x::b get;" b!"x::b" b!"get" [] := reads (by kernel_rfl)
  have h2 : Statement b!"x::b add: 3;" b!"x::b" b!"add:" [b!"3"] := reads (by kernel_rfl)
  rintro q hq _ ⟨ns, hs, _⟩
  simp only [payLog, List.mem_cons, List.not_mem_nil, or_false] at hq
  rcases hq with rfl | rfl | rfl
  · exact absurd (statement_unique h0 hs).1 (by decide)
  · exact absurd (statement_unique h1 hs).1 (by decide)
  · exact absurd (statement_unique h2 hs).1 (by decide)

/-- A transfer can be seen halfway. -/
example [StdSort] := C119_halfway payStart_reachable pay_serial (by decide) pay_a pay_b pay_keeps

/-- Both variables can be deleted at once. -/
example [StdSort] : DeletesBoth b!"Context deleteVariablesOfNamespace: x;" b!"x::a" b!"x::b" :=
  C119_one (pwd := []) (s := none) (c := payStart) (c' := fresh) (s' := none) (r := b!"null") payStart_reachable (by kernel_rfl) (by decide)
    (by rw [unchanged_iff]; decide +kernel) (by rw [unchanged_iff]; decide +kernel)

def payEvents : List Event := [
  .accept, .accept, .recv 0 b!"x::a subtract: 3;\nx::b add: 3;\n", .read 0, .wrote 0, .recv 1 b!"x::b get;\n", .read 1, .wrote 1, .read 0, .wrote 0]

theorem pay_run [StdSort] : ∃ s, run (Server.init [] payStart) payEvents = some (.done s) ∧ s.conns.map Conn.out = [b!"null\nnull\n", b!"0\n"] ∧ s.ctx = payEnd :=
  ⟨{ pwd := [], ctx := payEnd, accepting := true, conns := [
      { sess := ⟨true, true⟩, inbuf := [], phase := .reading, out := b!"null\nnull\n" },
      { sess := ⟨true, true⟩, inbuf := [], phase := .reading, out := b!"0\n" }] }, by kernel_rfl, rfl, rfl⟩

example [StdSort] := C119_server payStart_reachable pay_run.choose_spec.1

end Knuckle.Props
