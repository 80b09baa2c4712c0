/-
C51, C66, C67, C68, C79 and C95 for event histories: whatever the schedule, there is one serial order that explains all that the connections saw
(C44), and it has the properties claimed.
-/
import Verif.Props.Reads
import Verif.Props.Doubt

namespace Knuckle.Props

open Spec

variable {pwd n : Str} {c d c1 c2 : Ctx} {s s1 s2 : Server} {es es1 es2 : List Event}

/-! ### C51 -/

/-- Two servers in which everything but the logs is the same. -/
def sameButLog (s s' : Server) : Prop := s'.pwd = s.pwd ∧ s'.conns = s.conns ∧ s'.accepting = s.accepting ∧ SameData s.ctx s'.ctx

/-- The same for outcomes. -/
def outcomesSameButLog : Option (Outcome Server) → Option (Outcome Server) → Prop
  | none, none => True
  | some .ub, some .ub => True
  | some (.done s), some (.done s') => sameButLog s s'
  | _, _ => False

theorem handleLine_sameButLog [StdSort] {s s' : Server} (h : sameButLog s s') (i : Nat) (k : Conn) (line rest : Str) :
    outcomesSameButLog (some (handleLine s i k line rest)) (some (handleLine s' i k line rest)) := by
  obtain ⟨p, x, cs, a⟩ := s
  obtain ⟨p', x', cs', a'⟩ := s'
  obtain ⟨h1, h2, h3, h4⟩ := h
  simp only at h1 h2 h3 h4
  subst h1 h2 h3
  have key : ∀ actor, outcomesSameButLog
      (some (if k.sess.authed || isConnection actor then
        match execute p' x (some k.sess) line with
        | .done (ctx', some sess', out) =>
          .done { pwd := p', ctx := ctx', accepting := a', conns := cs'.set i { k with sess := sess', inbuf := rest, phase := if sess'.connected then .writing out else .dead } }
        | _ => .ub
      else .done { pwd := p', ctx := x, accepting := a', conns := cs'.set i { k with inbuf := rest, phase := .writing Exc.notAuthenticated.text } }))
      (some (if k.sess.authed || isConnection actor then
        match execute p' x' (some k.sess) line with
        | .done (ctx', some sess', out) =>
          .done { pwd := p', ctx := ctx', accepting := a', conns := cs'.set i { k with sess := sess', inbuf := rest, phase := if sess'.connected then .writing out else .dead } }
        | _ => .ub
      else .done { pwd := p', ctx := x', accepting := a', conns := cs'.set i { k with inbuf := rest, phase := .writing Exc.notAuthenticated.text } })) := by
    intro actor
    split
    · have := execute_sameData p' (some k.sess) line h4
      revert this
      generalize execute p' x (some k.sess) line = o
      generalize execute p' x' (some k.sess) line = o'
      intro this
      match o, o', this with
      | .ub, .ub, _ => exact trivial
      | .done (y, none, r), .done (y', _, _), this =>
        obtain ⟨_, rfl, rfl⟩ := this
        exact trivial
      | .done (y, some t, r), .done (y', _, _), this =>
        obtain ⟨e, rfl, rfl⟩ := this
        exact ⟨rfl, rfl, rfl, e⟩
    · exact ⟨rfl, rfl, rfl, h4⟩
  unfold handleLine
  cases parse line with
  | ok q => exact key q.actor
  | err _ => exact key []
  | ub => exact trivial

theorem step_sameButLog [StdSort] {s s' : Server} (h : sameButLog s s') (e : Event) : outcomesSameButLog (step s e) (step s' e) := by
  have hh := handleLine_sameButLog h
  obtain ⟨p, x, cs, a⟩ := s
  obtain ⟨p', x', cs', a'⟩ := s'
  obtain ⟨h1, h2, h3, h4⟩ := h
  simp only at h1 h2 h3 h4
  subst h1 h2 h3
  cases e with
  | accept => simp only [step]; split <;> first | exact ⟨rfl, rfl, rfl, h4⟩ | exact trivial
  | acceptErr => simp only [step]; split <;> first | exact ⟨rfl, rfl, rfl, h4⟩ | exact trivial
  | recv i b => simp only [step]; split; split <;> first | exact ⟨rfl, rfl, rfl, h4⟩ | exact trivial
                exact trivial
  | read i =>
    simp only [step]
    split
    · split
      · split
        · exact hh _ _ _ _
        · exact trivial
      · exact trivial
    · exact trivial
  | readErr i => simp only [step]; split; split <;> first | exact ⟨rfl, rfl, rfl, h4⟩ | exact trivial
                 exact trivial
  | wrote i =>
    simp only [step]
    split
    · split
      · split
        · exact ⟨rfl, rfl, rfl, h4⟩
        · exact trivial
      · exact trivial
    · exact trivial
  | wroteShort i => simp only [step]; split; split <;> first | exact ⟨rfl, rfl, rfl, h4⟩ | exact trivial
                    exact trivial
  | writeErr i => simp only [step]; split; split <;> first | exact ⟨rfl, rfl, rfl, h4⟩ | exact trivial
                  exact trivial

theorem run_sameButLog [StdSort] {s s' : Server} (h : sameButLog s s') (es : List Event) : outcomesSameButLog (run s es) (run s' es) := by
  induction es generalizing s s' with
  | nil => exact h
  | cons e es ih =>
    have := step_sameButLog h e
    simp only [run]
    revert this
    generalize step s e = o
    generalize step s' e = o'
    intro this
    match o, o', this with
    | none, none, _ => exact trivial
    | some .ub, some .ub, _ => exact trivial
    | some (.done _), some (.done _), this => exact ih this

/-- C51: the same events happen to two servers that differ only in their log file, quiet flag and past records, with the same bytes
written to the same connections, the same connections open, and the same data in the end. -/
theorem C51_server [StdSort] (hd : SameData c d) :
    (run (Server.init pwd c) es = none ↔ run (Server.init pwd d) es = none) ∧
    (run (Server.init pwd c) es = some .ub ↔ run (Server.init pwd d) es = some .ub) ∧
    ∀ s, run (Server.init pwd c) es = some (.done s) → ∃ s', run (Server.init pwd d) es = some (.done s') ∧ s'.conns = s.conns ∧
      s'.accepting = s.accepting ∧ SameData s.ctx s'.ctx := by
  have := run_sameButLog (s := Server.init pwd c) (s' := Server.init pwd d) ⟨rfl, rfl, rfl, hd⟩ es
  revert this
  generalize run (Server.init pwd c) es = o
  generalize run (Server.init pwd d) es = o'
  intro this
  match o, o', this with
  | none, none, _ => simp
  | some .ub, some .ub, _ => simp
  | some (.done s), some (.done s'), this =>
    refine ⟨by simp, by simp, fun t ht => ?_⟩
    cases ht
    exact ⟨s', rfl, this.2.1, this.2.2.1, this.2.2.2⟩

/-- The demonstration with and without a log file. -/
example [StdSort] : SameData fresh (Ctx.init 3 (.fin false 0) true false) ∧ run (Server.init b!"pw" fresh) demoEvents = some (.done demoServer) :=
  ⟨⟨rfl, rfl⟩, demo_run⟩

/-! ### C66 -/

/-- C66: whatever the schedule, the names behave as locks. -/
theorem C66_server [StdSort] (hc : Reachable c) (h : run (Server.init pwd c) es = some (.done s)) :
    ∃ log, Explains pwd c es s log ∧ ∀ n,
      ((∃ i, Holds s.ctx n i) ↔ ExistsAfter (∃ i, Holds c n i) log n) ∧
      (∀ l q l', log = l ++ q :: l' → Claims q.line n →
        (q.accepted ↔ Authenticated pwd l q.conn ∧ ¬ ExistsAfter (∃ i, Holds c n i) l n)) ∧
      (∀ l1 q1 l2 q2 l3, log = l1 ++ q1 :: (l2 ++ q2 :: l3) → Claims q1.line n → Claims q2.line n → q1.accepted → q2.accepted →
        ∃ q ∈ l2, q.accepted ∧ Deletes q.line n) := by
  obtain ⟨log, hl⟩ := C44_serialized hc h
  refine ⟨log, hl, fun n => ⟨C66_exists_iff hc hl.serial, ?_, ?_⟩⟩
  · rintro l q l' rfl hq
    exact C66_claim_accepted_iff hc hl.serial hq
  · rintro l1 q1 l2 q2 l3 rfl h1 h2 a1 a2
    exact C66_mutual_exclusion hc hl.serial h1 h2 a1 a2

/-! ### C67 -/

/-- C67: whatever the schedule, no update is lost: counters count everything that was accepted, journals hold everything, queues give each
element once and in order. -/
theorem C67_server [StdSort] (hc : Reachable c) (h : run (Server.init pwd c) es = some (.done s)) :
    ∃ log, Explains pwd c es s log ∧ ∀ n ops, UpdatesOf n log ops →
      (∀ v d, Holds c n (.integer v) → CounterOps ops d → Holds s.ctx n (.integer (v + d))) ∧
      (∀ v vs, Holds c n (.string v) → JournalOps ops vs → Holds s.ctx n (.string (v ++ vs.flatten))) ∧
      (∀ t l pushed replies, Holds c n (.vector t l) → QueueOps t ops pushed replies →
        ∃ popped l', Holds s.ctx n (.vector t l') ∧ l ++ pushed = popped ++ l' ∧
          List.Forall₂ (fun o q => ∃ p, q = o.repr p) popped (replies.filter (· ≠ b!"null"))) := by
  obtain ⟨log, hl⟩ := C44_serialized hc h
  exact ⟨log, hl, fun n ops ho => ⟨fun v d hn hq => C67_counter hc hn hl.serial ho hq, fun v vs hn hq => C67_journal hc hn hl.serial ho hq,
    fun t l pushed replies hn hq => C67_queue hc hn hl.serial ho hq⟩⟩

/-- Two clients count, on the demonstration server's port. -/
def countEvents : List Event := [
  .accept, .accept, .recv 0 b!"i add: 10;\n", .recv 1 b!"i add: 20;\n", .read 1, .read 0, .wrote 0, .wrote 1, .recv 0 b!"i subtract: 3;\n", .read 0]

def countServer : Server :=
  { pwd := [], ctx := { demo with vars := updateVar b!"i" (.integer 20) demo.vars }, accepting := true, conns := [
    { sess := ⟨true, true⟩, inbuf := [], phase := .writing b!"null", out := b!"null\n" },
    { sess := ⟨true, true⟩, inbuf := [], phase := .reading, out := b!"null\n" }] }

theorem count_run [StdSort] : run (Server.init [] demo) countEvents = some (.done countServer) := by kernel_rfl

example [StdSort] : Reachable demo ∧ run (Server.init [] demo) countEvents = some (.done countServer) ∧ Holds demo b!"i" (.integer (-7)) ∧
    Holds countServer.ctx b!"i" (.integer (-7 + 27)) :=
  ⟨demo_reachable, count_run, by decide +kernel, by decide +kernel⟩

/-! ### C68 -/

/-- C68: whatever the two schedules, the same updates in different orders have the same effect, if they do not conflict. -/
theorem C68_server [StdSort] (hc : Reachable c) (h1 : run (Server.init pwd c) es1 = some (.done s1)) (h2 : run (Server.init pwd c) es2 = some (.done s2)) :
    ∃ log1 log2, Explains pwd c es1 s1 log1 ∧ Explains pwd c es2 s2 log2 ∧
      ∀ n ops1 ops2, UpdatesOf n log1 ops1 → UpdatesOf n log2 ops2 →
        (∀ v d1 d2, Holds c n (.integer v) → CounterOps ops1 d1 → CounterOps ops2 d2 → (messages ops1).Perm (messages ops2) →
          ∃ w, Holds s1.ctx n (.integer w) ∧ Holds s2.ctx n (.integer w)) ∧
        (∀ t l, t ≠ b!"Float" → Holds c n (.set t l) → (∀ m, m ∈ messages ops1 ↔ m ∈ messages ops2) →
          (∀ op ∈ ops1, ∀ op' ∈ ops1, ∀ o, Adds t o op → ¬ Removes t o op') → ∃ l', Holds s1.ctx n (.set t l') ∧ Holds s2.ctx n (.set t l')) ∧
        (∀ t u l, t ≠ b!"Float" → Holds c n (.dictionary t u l) → (∀ m, m ∈ messages ops1 ↔ m ∈ messages ops2) →
          (∀ op ∈ ops1, ∀ op' ∈ ops1, ∀ k, Rewrites t u k op → Rewrites t u k op' → op'.1 = op.1 ∧ op'.2.1 = op.2.1) →
          ∃ l', Holds s1.ctx n (.dictionary t u l') ∧ Holds s2.ctx n (.dictionary t u l')) := by
  obtain ⟨log1, hl1⟩ := C44_serialized hc h1
  obtain ⟨log2, hl2⟩ := C44_serialized hc h2
  exact ⟨log1, log2, hl1, hl2, fun n ops1 ops2 o1 o2 => ⟨
    fun v d1 d2 hn q1 q2 hp => C68_counter_order hc hn hl1.serial hl2.serial o1 o2 q1 q2 hp,
    fun t l ht hn hm hf => C68_set_order ht hc hn hl1.serial hl2.serial o1 o2 hm hf,
    fun t u l ht hn hm hf => C68_dictionary_order ht hc hn hl1.serial hl2.serial o1 o2 hm hf⟩⟩

/-! ### C79 -/

open Classical in
/-- C79: whatever the schedule, what a client reads is what was last written. -/
theorem C79_server [StdSort] (hc : Reachable c) (h : run (Server.init pwd c) es = some (.done s)) :
    ∃ log, Explains pwd c es s log ∧ ∀ n l q l', log = l ++ q :: l' → Authenticated pwd l q.conn →
      (∀ o₀ ops a r, Holds c n (ofObj o₀) → UpdatesOf n l (ops ++ [(b!"set:", [a], r)]) → Statement q.line n b!"get" [] →
        ∃ o d, Denotes o₀.type a o ∧ Serial pwd c l d ∧ q.reply = o.repr d.cfg.prec) ∧
      (∀ t l₀ ops a o, t ≠ b!"Float" → Holds c n (.set t l₀) → UpdatesOf n l ops → Statement q.line n b!"contains?" [a] → Denotes t a o →
        q.reply = truth (ElementAfter t l₀ ops o)) ∧
      (∀ t u l₀ ops a k v, t ≠ b!"Float" → Holds c n (.dictionary t u l₀) → UpdatesOf n l ops →
        Statement q.line n b!"getValueForKey:" [a] → Denotes t a k → ValueAfter t u l₀ ops k v →
        ∃ d, Serial pwd c l d ∧ q.reply = v.repr d.cfg.prec) ∧
      (∀ t u l₀ ops a k, t ≠ b!"Float" → Holds c n (.dictionary t u l₀) → UpdatesOf n l ops →
        Statement q.line n b!"getValueForKey:" [a] → Denotes t a k → (∀ v, ¬ ValueAfter t u l₀ ops k v) → q.reply = b!"null") := by
  obtain ⟨log, hl⟩ := C44_serialized hc h
  refine ⟨log, hl, ?_⟩
  rintro n l q l' rfl ha
  exact ⟨fun o₀ ops a r hn ho hq => C79_register hc hn hl.serial ha ho hq,
    fun t l₀ ops a o ht hn ho hq hd => C79_set ht hc hn hl.serial ha ho hq hd,
    fun t u l₀ ops a k v ht hn ho hq hd hv => C79_dictionary ht hc hn hl.serial ha ho hq hd hv,
    fun t u l₀ ops a k ht hn ho hq hd hv => C79_dictionary_none ht hc hn hl.serial ha ho hq hd hv⟩

/-! ### C95 -/

/-- C95: for two schedules, one in which the connection broke before the request was executed and one in which it broke afterwards. -/
theorem C95_server [StdSort] {l m m' : List Request} {line r r1 r2 : Str} {i j : Nat} (hc : Reachable c)
    (h1 : Explains pwd c es1 s1 (l ++ m ++ [⟨j, line, r1⟩])) (h2 : Explains pwd c es2 s2 (l ++ [⟨i, line, r⟩] ++ m' ++ [⟨j, line, r2⟩]))
    (hq : ∀ d, Serial pwd c l d → Retriable d line) (hto : ¬ ToConnection line) (hns : ¬ SetsSetting line)
    (hm : ∀ x ∈ m, ¬ SetsSetting x.line ∧ ∀ n, Touches x.line n → ¬ Touches line n) (ha : Authenticated pwd (l ++ m) j)
    (hmm : m'.map (fun x => (x.conn, x.line)) = m.map fun x => (x.conn, x.line)) : m' = m ∧ SameData s1.ctx s2.ctx := by
  have hA := h1.serial
  obtain ⟨d, h0⟩ := serial_prefix (by rwa [List.append_assoc] at hA)
  exact C95_send_again_later hc h0 (hq d h0) hto hns hm ha hmm h1.serial h2.serial

/-- A client sets a number and breaks its connection before or after the request is executed; another client clears a vector; the first one comes
back and repeats its request. -/
def brokenBefore : List Event := [
  .accept, .accept, .recv 0 b!"i set: 5;\n", .readErr 0, .recv 1 b!"v clear;\n", .read 1, .accept, .recv 2 b!"i set: 5;\n", .read 2]

def brokenAfter : List Event := [
  .accept, .accept, .recv 0 b!"i set: 5;\n", .read 0, .writeErr 0, .recv 1 b!"v clear;\n", .read 1, .accept, .recv 2 b!"i set: 5;\n", .read 2]

example [StdSort] : ∃ s1 s2, run (Server.init [] demo) brokenBefore = some (.done s1) ∧ run (Server.init [] demo) brokenAfter = some (.done s2) ∧
    s1.conns.map Conn.out = s2.conns.map Conn.out ∧ s1.ctx.vars = s2.ctx.vars := by
  let x : Ctx := { demo with vars := updateVar b!"i" (.integer 5) (updateVar b!"v" (.vector b!"Integer" []) demo.vars) }
  let k1 : Conn := ⟨⟨true, true⟩, [], .writing b!"null", []⟩
  let sA : Server := ⟨[], x, [⟨⟨true, true⟩, b!"i set: 5;\n", .dead, []⟩, k1, k1], true⟩
  let sB : Server := ⟨[], x, [⟨⟨true, true⟩, [], .dead, []⟩, k1, k1], true⟩
  have e1 : run (Server.init [] demo) brokenBefore = some (.done sA) := by kernel_rfl
  have e2 : run (Server.init [] demo) brokenAfter = some (.done sB) := by kernel_rfl
  exact ⟨sA, sB, e1, e2, rfl, rfl⟩

end Knuckle.Props
