/-
C99: any number of clients can agree on one value.
-/
import Verif.Spec.Consensus
import Verif.Props.Reads
import Verif.Props.Schedules
import Verif.Props.Undefined

namespace Knuckle.Props

open Spec

variable {pwd n : Str} {c c' : Ctx} {log l l' : List Request} {q : Request} {o : Obj}

theorem proposes_creates {text : Str} (h : Proposes text n o) :
    ∃ t a, Statement text t b!"createIfNotExists:withValue:" [n, a] ∧ Creates t b!"createIfNotExists:withValue:" [n, a] n (ofObj o) := by
  obtain ⟨t, a, h1, h2, h3, h4⟩ := h
  exact ⟨t, a, h3, .value h1 (by simp) h2 h4⟩

theorem proposes_creation {text : Str} (h : Proposes text n o) : CreationOf text n (ofObj o) := by
  obtain ⟨t, a, h1, h2⟩ := proposes_creates h
  exact ⟨t, _, _, h1, h2⟩

/-- A request names what it proposes. -/
theorem proposes_unique {text : Str} {o' : Obj} (h : Proposes text n o) (h' : Proposes text n o') : o = o' := by
  obtain ⟨t, a, _, _, h1, h2⟩ := h
  obtain ⟨t', a', _, _, h3, h4⟩ := h'
  obtain ⟨rfl, _, e⟩ := statement_same h1 h3
  cases e
  exact denotes_unique h2 h4

theorem creation_not_deletes {text : Str} {i : Inst} (h : CreationOf text n i) : ¬ Deletes text n := by
  obtain ⟨a, name, args, h1, h2⟩ := h
  have ha := (creates_creation h2).1
  intro hd
  have key : ∀ {name' args'}, Statement text b!"Context" name' args' → False := fun h3 => by
    obtain ⟨rfl, _, _⟩ := statement_same h1 h3
    exact absurd ha (by rw [← isType_iff]; decide)
  cases hd with
  | delete h => exact key h
  | deleteNamespace h _ => exact key h

theorem asksFor_not_deletes {text : Str} (h : AsksFor text n) : ¬ Deletes text n := by
  intro hd
  cases hd with
  | delete h' => obtain ⟨_, h2, _⟩ := statement_same h h'; exact absurd h2 (by decide)
  | deleteNamespace h' _ => obtain ⟨_, h2, _⟩ := statement_same h h'; exact absurd h2 (by decide)

theorem deletes_concerns {text : Str} (h : Deletes text n) : Concerns text n := by
  cases h with
  | delete h => exact .delete h
  | deleteNamespace h h' => exact .deleteNamespace h h'

theorem protocol_not_deletes {text : Str} (h : ByProtocol n text) : ¬ Deletes text n := by
  rcases h with ⟨o, h⟩ | h | h
  · exact creation_not_deletes (proposes_creation h)
  · exact asksFor_not_deletes h
  · exact fun hd => h.1 (deletes_concerns hd)

theorem creation_not_concerns {text : Str} {i : Inst} (hn : Variable n) (h : CreationOf text n i) : ¬ Concerns text n := by
  intro hd
  cases hd with
  | message h' =>
    obtain ⟨a, name, args, h1, h2⟩ := h
    obtain ⟨rfl, _, _⟩ := statement_same h1 h'
    exact absurd hn (type_not_variable (creates_creation h2).1)
  | delete h' => exact creation_not_deletes h (.delete h')
  | deleteNamespace h' h'' => exact creation_not_deletes h (.deleteNamespace h' h'')

theorem protocol_updates (hn : Variable n) (h : ∀ x ∈ log, ByProtocol n x.line) : UpdatesOf n log [] := by
  induction log with
  | nil => exact .nil
  | cons q log ih =>
    refine .other ?_ (ih fun x hx => h x (List.mem_cons_of_mem _ hx))
    rcases h q (List.mem_cons_self ..) with ⟨o, h⟩ | h | h
    · exact .inr (.inr (creation_not_concerns hn (proposes_creation h)))
    · exact .inr (.inl ⟨_, _, h, by decide⟩)
    · exact .inr (.inr h.1)

/-- The first accepted proposal, if there is one. -/
theorem first_or_none (n : Str) (log : List Request) :
    (∃ o, FirstProposal n log o) ∨ ∀ x ∈ log, x.accepted → ∀ o, ¬ Proposes x.line n o := by
  induction log with
  | nil => exact .inr (by simp)
  | cons q log ih =>
    by_cases h : q.accepted ∧ ∃ o, Proposes q.line n o
    · obtain ⟨h1, o, h2⟩ := h
      exact .inl ⟨o, [], q, log, rfl, h1, h2, by simp⟩
    · have hq : q.accepted → ∀ o, ¬ Proposes q.line n o := fun ha o ho => h ⟨ha, o, ho⟩
      rcases ih with ⟨o, l, p, l', e, h1, h2, h3⟩ | ih
      · refine .inl ⟨o, q :: l, p, l', by rw [e]; rfl, h1, h2, fun x hx => ?_⟩
        rcases List.mem_cons.1 hx with rfl | hx
        · exact hq
        · exact h3 x hx
      · refine .inr fun x hx => ?_
        rcases List.mem_cons.1 hx with rfl | hx
        · exact hq
        · exact ih x hx

/-- C99: at most one value is decided, and what is decided stays decided. -/
theorem C99_decided_once {o' : Obj} (h : FirstProposal n log o) (h' : FirstProposal n (log ++ l) o') : o = o' := by
  obtain ⟨a, p, b, e, h1, h2, h3⟩ := h
  obtain ⟨a', p', b', e', h1', h2', h3'⟩ := h'
  rw [e, List.append_assoc] at e'
  rcases List.append_eq_append_iff.1 e' with ⟨x, e1, e2⟩ | ⟨x, e1, e2⟩
  · rcases x with _ | ⟨y, x⟩
    · obtain ⟨rfl, _⟩ := List.cons.inj (by simpa using e2)
      exact proposes_unique h2 h2'
    · obtain ⟨rfl, _⟩ := List.cons.inj (by simpa using e2)
      exact absurd h2 (h3' p (by rw [e1]; simp) h1 _)
  · rcases x with _ | ⟨y, x⟩
    · obtain ⟨rfl, _⟩ := List.cons.inj (by simpa using e2)
      exact proposes_unique h2 h2'
    · obtain ⟨rfl, _⟩ := List.cons.inj (by simpa using e2)
      exact absurd h2' (h3 p' (by rw [e1]; simp) h1' _)

theorem protocol_none [StdSort] (hc : Reachable c) (hn : Absent c n) (h : Serial pwd c log c') (hp : ∀ x ∈ log, ByProtocol n x.line)
    (h0 : ∀ x ∈ log, x.accepted → ∀ o, ¬ Proposes x.line n o) : Absent c' n := by
  have hx := (C66_exists_iff (n := n) hc h).not.2 ?_
  · unfold Absent
    cases e : c'.vars.lookup n with
    | none => rfl
    | some i => exact absurd ⟨i, e⟩ hx
  · rintro (⟨l, q, l', rfl, h1, ⟨i, h2⟩, _⟩ | ⟨⟨i, hi⟩, _⟩)
    · rcases hp q (by simp) with ⟨o, h⟩ | h | h
      · exact h0 q (by simp) h1 o h
      · obtain ⟨a, name, args, h3, h4⟩ := h2
        obtain ⟨_, _, e⟩ := statement_same h3 h
        cases h4 <;> cases e
      · exact h.2 i h2
    · unfold Absent at hn; unfold Holds at hi; rw [hn] at hi; cases hi

/-- C99: as long as everybody keeps to the protocol, the variable has the first accepted proposal as its value. -/
theorem C99_first_wins [StdSort] (hc : Reachable c) (hn : Absent c n) (h : Serial pwd c log c') (hp : ∀ x ∈ log, ByProtocol n x.line)
    (hf : FirstProposal n log o) : Holds c' n (ofObj o) := by
  obtain ⟨l, q, l', rfl, h1, h2, h3⟩ := hf
  have hv : Variable n := h2.choose_spec.choose_spec.2.1
  induction l' using List.reverseRecOn generalizing c' with
  | nil =>
    obtain ⟨x, hx, _, ⟨s, s', _, _, h4⟩ | ⟨_, _, h4, _⟩⟩ := serial_snoc h
    · have hab : Absent x n := protocol_none hc hn hx (fun y hy => hp y (by simp [hy])) h3
      obtain ⟨y, hy, _, h5, _⟩ := C29_creation_adds_one_variable (pwd := pwd) (s := some s) (serial_reachable hc hx) (proposes_creation h2) hab
      unfold Replies at hy
      rw [h4] at hy
      have hy := (Prod.mk.inj (Outcome.done.inj hy)).1
      rw [hy]; exact h5
    · exact absurd (by rw [h4]; decide) h1
  | append_singleton l' p ih =>
    have h' : Serial pwd c ((l ++ q :: l') ++ [p]) c' := by simpa using h
    obtain ⟨x, hx, _, ⟨s, s', _, _, h4⟩ | ⟨_, _, h4, rfl⟩⟩ := serial_snoc h'
    · have hi := ih hx fun y hy => hp y (by simp at hy ⊢; tauto)
      have hu : Updates n x [] c' := .other h4 (by
        rcases hp p (by simp) with ⟨o, h⟩ | h | h
        · exact .inr (.inr (creation_not_concerns hv (proposes_creation h)))
        · exact .inr (.inl ⟨_, _, h, by decide⟩)
        · exact .inr (.inr h.1)) .nil
      obtain ⟨_, j, hj, hch⟩ := updates_chain (serial_reachable hc hx) hi hu
      cases hch
      exact hj
    · exact ih hx fun y hy => hp y (by simp at hy ⊢; tauto)

/-- C99: every proposal of an authenticated client is accepted, whether it comes first or not: nobody has to wait or to try again. -/
theorem C99_proposals_are_accepted [StdSort] (hc : Reachable c) (h : Serial pwd c (l ++ q :: l') c') (hq : Proposes q.line n o)
    (ha : Authenticated pwd l q.conn) : q.accepted ∧ q.reply = b!"null" := by
  suffices q.reply = b!"null" from ⟨by unfold Request.accepted; rw [this]; decide, this⟩
  obtain ⟨x, hx⟩ := serial_prefix (l1 := l ++ [q]) (l2 := l') (by simpa using h)
  obtain ⟨d, hd, _, ⟨s, s', _, _, h3⟩ | ⟨h1, _⟩⟩ := serial_snoc hx
  · obtain ⟨t, a, h4, h5⟩ := proposes_creates hq
    have hr := serial_reachable hc hd
    have : ∃ y, Replies pwd d (some s) q.line b!"null" y := by
      cases e : d.vars.lookup n with
      | none =>
        obtain ⟨y, hy, _⟩ := C29_creation_adds_one_variable (pwd := pwd) (s := some s) hr (proposes_creation hq) e
        exact ⟨y, hy⟩
      | some j =>
        obtain ⟨y, hy, _⟩ := C29_createIfNotExists_never_overwrites (pwd := pwd) (s := some s) hr h4 h5 e (.inr rfl)
        exact ⟨y, hy⟩
    obtain ⟨y, hy⟩ := this
    unfold Replies at hy
    rw [h3] at hy
    exact (Prod.mk.inj (Prod.mk.inj (Outcome.done.inj hy)).2).2
  · exact absurd ha h1

theorem asksFor_authenticated [StdSort] (hn : Variable n) (h : Serial pwd c (l ++ q :: l') c') (hq : AsksFor q.line n) (ha : q.accepted) :
    Authenticated pwd l q.conn := by
  obtain ⟨x, hx⟩ := serial_prefix (l1 := l ++ [q]) (l2 := l') (by simpa using h)
  obtain ⟨d, hd, _, ⟨s, s', _, h2, h3⟩ | ⟨_, _, h1, _⟩⟩ := serial_snoc hx
  · rcases h2 with h2 | ⟨m, args, h2⟩
    · exact h2
    · obtain ⟨rfl, _, _⟩ := statement_same hq h2
      exact absurd hn (by rw [← isVariable_iff]; decide)
  · exact absurd (by rw [h1]; decide) ha

/-- C99: what an authenticated client that asks is told: the first proposal that was accepted before, whoever made it; and if there was none,
that there is no such variable. -/
theorem C99_answer [StdSort] (hv : Variable n) (hc : Reachable c) (hn : Absent c n) (h : Serial pwd c (l ++ q :: l') c')
    (hp : ∀ x ∈ l, ByProtocol n x.line) (hq : AsksFor q.line n) (ha : Authenticated pwd l q.conn) :
    (∃ o d, FirstProposal n l o ∧ Serial pwd c l d ∧ q.reply = o.repr d.cfg.prec) ∨
      ((∀ x ∈ l, x.accepted → ∀ o, ¬ Proposes x.line n o) ∧ q.reply = b!"RuntimeError: name cannot be resolved to a variable.") := by
  obtain ⟨d, s, hd, hr⟩ := read_at h ha
  rcases first_or_none n l with ⟨o, ho⟩ | h0
  · have hi := C99_first_wins hc hn hd hp ho
    exact .inl ⟨o, d, ho, hd, hr _ (scalar_get (serial_reachable hc hd) hi hq)⟩
  · have hi := protocol_none hc hn hd hp h0
    exact .inr ⟨h0, hr _ ((C49_unknown_variable (serial_reachable hc hd) hq).2 (.inl ⟨hv, hi⟩))⟩

/-- C99: agreement and validity: all clients that are told a value are told the same one, and it is one that was proposed before the first of
them was told. -/
theorem C99_agreement [StdSort] {l1 l2 l3 : List Request} {q1 q2 : Request} (hv : Variable n) (hc : Reachable c) (hn : Absent c n)
    (h : Serial pwd c (l1 ++ q1 :: (l2 ++ q2 :: l3)) c') (hp : ∀ x ∈ l1 ++ q1 :: l2, ByProtocol n x.line)
    (h1 : AsksFor q1.line n) (h2 : AsksFor q2.line n) (a1 : q1.accepted) (a2 : q2.accepted) :
    ∃ o p1 p2, q1.reply = o.repr p1 ∧ q2.reply = o.repr p2 ∧ (o.type ≠ b!"Float" → q1.reply = q2.reply) ∧
      ∃ x ∈ l1, x.accepted ∧ Proposes x.line n o := by
  have h' : Serial pwd c ((l1 ++ q1 :: l2) ++ q2 :: l3) c' := by simpa using h
  rcases C99_answer hv hc hn h (fun x hx => hp x (by simp [hx])) h1 (asksFor_authenticated hv h h1 a1) with ⟨o, d, f1, s1, r1⟩ | ⟨_, r⟩
  swap
  · exact absurd (by rw [r]; decide) a1
  rcases C99_answer hv hc hn h' hp h2 (asksFor_authenticated hv h' h2 a2) with ⟨o', d', f2, s2, r2⟩ | ⟨_, r⟩
  swap
  · exact absurd (by rw [r]; decide) a2
  obtain rfl := C99_decided_once f1 f2
  refine ⟨o, _, _, r1, r2, fun hf => ?_, ?_⟩
  · rw [r1, r2]
    cases o with
    | float x => exact absurd rfl hf
    | _ => rfl
  · obtain ⟨a, p, b, rfl, b1, b2, _⟩ := f1
    exact ⟨p, by simp, b1, b2⟩

/-- C99: a client that has proposed and then asks is told a value: it need not wait for any other client. -/
theorem C99_wait_free [StdSort] {l1 l2 l3 : List Request} {p : Request} (hc : Reachable c) (hn : Absent c n)
    (h : Serial pwd c (l1 ++ p :: (l2 ++ q :: l3)) c') (hp : ∀ x ∈ l1 ++ p :: l2, ByProtocol n x.line)
    (h1 : Proposes p.line n o) (a1 : Authenticated pwd l1 p.conn) (hq : AsksFor q.line n) (hi : q.conn = p.conn) :
    ∃ o' d, FirstProposal n (l1 ++ p :: l2) o' ∧ Serial pwd c (l1 ++ p :: l2) d ∧ q.reply = o'.repr d.cfg.prec := by
  have hv : Variable n := h1.choose_spec.choose_spec.2.1
  have ha : Authenticated pwd (l1 ++ p :: l2) q.conn := by
    rw [hi]
    rcases a1 with h | ⟨x, hx, h⟩
    · exact .inl h
    · exact .inr ⟨x, by simp [hx], h⟩
  rcases C99_answer hv hc hn (l := l1 ++ p :: l2) (l' := l3) (by simpa using h) hp hq ha with h3 | ⟨h3, _⟩
  · exact h3
  · exact absurd h1 (h3 p (by simp) (C99_proposals_are_accepted hc h h1 a1).1 o)

/-- C99: the same for every schedule of a server. -/
theorem C99_server [StdSort] {es : List Event} {s : Server} (hv : Variable n) (hc : Reachable c) (hn : Absent c n)
    (h : run (Server.init pwd c) es = some (.done s)) :
    ∃ log, Explains pwd c es s log ∧ ((∀ x ∈ log, ByProtocol n x.line) → ∀ q1 ∈ log, ∀ q2 ∈ log, AsksFor q1.line n → AsksFor q2.line n →
      q1.accepted → q2.accepted → ∃ o p1 p2, q1.reply = o.repr p1 ∧ q2.reply = o.repr p2 ∧ (o.type ≠ b!"Float" → q1.reply = q2.reply) ∧
        FirstProposal n log o) := by
  obtain ⟨log, hl⟩ := C44_serialized hc h
  refine ⟨log, hl, fun hp q1 m1 q2 m2 h1 h2 a1 a2 => ?_⟩
  have key : ∀ q ∈ log, AsksFor q.line n → q.accepted → ∃ o p, FirstProposal n log o ∧ q.reply = o.repr p := by
    intro q m h1 a1
    obtain ⟨l, l', rfl⟩ := List.append_of_mem m
    rcases C99_answer hv hc hn hl.serial (fun x hx => hp x (by simp [hx])) h1 (asksFor_authenticated hv hl.serial h1 a1) with ⟨o, d, f1, s1, r1⟩ | ⟨_, r⟩
    · obtain ⟨a, p, b, rfl, b1, b2, b3⟩ := f1
      exact ⟨o, _, ⟨a, p, b ++ q :: l', by simp, b1, b2, b3⟩, r1⟩
    · exact absurd (by rw [r]; decide) a1
  obtain ⟨o, p1, f1, r1⟩ := key q1 m1 h1 a1
  obtain ⟨o', p2, f2, r2⟩ := key q2 m2 h2 a2
  obtain rfl := C99_decided_once (l := []) f1 (by simpa using f2)
  refine ⟨o, p1, p2, r1, r2, fun hf => ?_, f1⟩
  rw [r1, r2]
  cases o with
  | float x => exact absurd rfl hf
  | _ => rfl

/-- Client 0 proposes 1, client 1 proposes 2, both ask, and both are told 1. -/
def agreementLog : List Request :=
  [⟨0, b!"Integer createIfNotExists: leader withValue: 1;", b!"null"⟩, ⟨1, b!"Integer createIfNotExists: leader withValue: 2;", b!"null"⟩,
   ⟨1, b!"leader get;", b!"1"⟩, ⟨0, b!"leader get;", b!"1"⟩]

example [StdSort] : Reachable fresh ∧ Absent fresh b!"leader" ∧ (∃ c', Serial [] fresh agreementLog c') ∧
    (∀ x ∈ agreementLog, ByProtocol b!"leader" x.line) ∧ FirstProposal b!"leader" agreementLog (.integer 1) ∧
    (⟨1, b!"leader get;", b!"1"⟩ : Request).accepted := by
  have hv : Variable b!"leader" := (isVariable_iff _).1 (by decide +kernel)
  have p1 : Proposes b!"Integer createIfNotExists: leader withValue: 1;" b!"leader" (.integer 1) :=
    ⟨b!"Integer", b!"1", by simp [ObjectType], hv, reads (by kernel_rfl),
      lit_int (by decide +kernel) (by decide +kernel) (by unfold IsInt32; decide)⟩
  have p2 : Proposes b!"Integer createIfNotExists: leader withValue: 2;" b!"leader" (.integer 2) :=
    ⟨b!"Integer", b!"2", by simp [ObjectType], hv, reads (by kernel_rfl),
      lit_int (by decide +kernel) (by decide +kernel) (by unfold IsInt32; decide)⟩
  have g : AsksFor b!"leader get;" b!"leader" := reads (by kernel_rfl)
  refine ⟨fresh_reachable, rfl, ⟨{ fresh with vars := [(b!"leader", .integer 1)] }, serially_serial (ls := [(0, b!"Integer createIfNotExists: leader withValue: 1;"),
    (1, b!"Integer createIfNotExists: leader withValue: 2;"), (1, b!"leader get;"), (0, b!"leader get;")]) .nil (by simp) (by kernel_rfl)⟩, ?_, ?_, ?_⟩
  · intro x hx
    simp only [agreementLog, List.mem_cons, List.not_mem_nil, or_false] at hx
    rcases hx with rfl | rfl | rfl | rfl
    · exact .inl ⟨_, p1⟩
    · exact .inl ⟨_, p2⟩
    · exact .inr (.inl g)
    · exact .inr (.inl g)
  · exact ⟨[], _, _, rfl, (by decide : b!"null" ∉ errorTexts), p1, by simp⟩
  · exact (by decide : b!"1" ∉ errorTexts)

end Knuckle.Props
