/-
C35 (on the wire), C40–C48: the server, for every schedule.

All theorems are about the states that `run` reaches from `Server.init pwd c`, i.e. about every interleaving of arriving
bytes and completion handlers, for every password and every initial context.
-/
import Verif.Proofs.Serial
import Verif.Props.Strings
import Verif.Props.Lines

namespace Knuckle.Props

open Spec

variable {pwd : Str} {c : Ctx} {es es' : List Event} {s s' : Server} {log : List Request} {i : Nat} {k : Conn}

/-! ### A concrete schedule -/

/-- Two clients on a server with password "pw": the second one authenticates and creates a variable, the first one tries to
read it without authentication, authenticates and reads it; its bytes come in odd pieces. -/
def demoEvents : List Event := [
  .accept, .accept, .recv 1 b!"Connection authenticateWithPassword: \"pw\";\nInteger create: i with", .recv 0 b!"i g",
  .read 1, .wrote 1, .recv 1 b!"Value: 42;\n", .read 1, .recv 0 b!"et;\nConnection authenticateWithPassword: \"pw\";\ni get;\nhalf", .read 0,
  .wrote 1, .wrote 0, .read 0, .wrote 0, .read 0]

def demoServer : Server :=
  { pwd := b!"pw", ctx := { fresh with vars := [(b!"i", .integer 42)] }, accepting := true, conns := [
    { sess := ⟨true, true⟩, inbuf := b!"half", phase := .writing b!"42", out := b!"AuthenticationError: not authenticated.\nnull\n" },
    { sess := ⟨true, true⟩, inbuf := [], phase := .reading, out := b!"null\nnull\n" }] }

theorem demo_run [StdSort] : run (Server.init b!"pw" fresh) demoEvents = some (.done demoServer) := by kernel_rfl

/-! ### C44 -/

/-- C44: whatever the schedule, the state of the server is explained by a serial execution of the requests
(`Spec.Explains`): same context, same replies, in every connection's own order. -/
theorem C44_serialized [StdSort] (hc : Reachable c) (h : run (Server.init pwd c) es = some (.done s)) :
    ∃ log, Explains pwd c es s log := by
  obtain ⟨log, hl⟩ := explains_run hc (explains_init pwd c) h
  exact ⟨log, by simpa using hl⟩

/-- C44: the order is also that of time: what happens later only appends to the serial order, so a request that was
answered before another one arrived comes before it. -/
theorem C44_respects_time [StdSort] (hc : Reachable c) (h : Explains pwd c es s log) (hr : run s es' = some (.done s')) :
    ∃ log', Explains pwd c (es ++ es') s' (log ++ log') := explains_run hc h hr

/-- C44: the replies and the final context are determined by the order of the lines. -/
theorem C44_order_determines [StdSort] {c1 c2 : Ctx} {l1 l2 : List Request} (h1 : Serial pwd c l1 c1) (h2 : Serial pwd c l2 c2)
    (h : l1.map (fun q => (q.conn, q.line)) = l2.map fun q => (q.conn, q.line)) : l1 = l2 ∧ c1 = c2 := serial_det h1 h2 h

example [StdSort] : ∃ log, Explains b!"pw" fresh demoEvents demoServer log ∧ log ≠ [] := by
  obtain ⟨log, h⟩ := C44_serialized fresh_reachable demo_run
  refine ⟨log, h, ?_⟩
  rintro rfl
  have := h.output 1 _ (by decide +kernel : demoServer.conns[1]? = some
    { sess := ⟨true, true⟩, inbuf := [], phase := .reading, out := b!"null\nnull\n" })
  have this : b!"null\nnull\n" = wire [] := this
  revert this; decide

/-! ### C43 -/

/-- C43: what has been written to a connection are the replies, one line each, to the first `n` of its requests, which are
the first lines of what it sent; at most one request (the last one) has been executed but not answered yet. -/
theorem C43_answered_in_order [StdSort] (hc : Reachable c) (h : run (Server.init pwd c) es = some (.done s))
    (hk : s.conns[i]? = some k) :
    ∃ log, Serial pwd c log s.ctx ∧
      received i es = wire ((requestsOf i log).map Request.line) ++ k.inbuf ∧ (∀ q ∈ log, (10 : Byte) ∉ q.line) ∧
      ∃ n, k.out = wire (((requestsOf i log).take n).map Request.reply) ∧ n ≤ (requestsOf i log).length ∧
        (requestsOf i log).length ≤ n + 1 ∧ (k.phase = .reading → n = (requestsOf i log).length) := by
  obtain ⟨log, hl⟩ := C44_serialized hc h
  refine ⟨log, hl.serial, hl.input i k hk, hl.oneLine, ?_⟩
  have hout := hl.output i k hk
  have all : k.out = wire ((requestsOf i log).map Request.reply) → ∃ n, k.out = wire (((requestsOf i log).take n).map Request.reply) ∧
      n ≤ (requestsOf i log).length ∧ (requestsOf i log).length ≤ n + 1 ∧ (k.phase = .reading → n = (requestsOf i log).length) :=
    fun e => ⟨_, by rw [List.take_length]; exact e, Nat.le_refl _, by omega, fun _ => rfl⟩
  have but : ∀ rs r, (requestsOf i log).map Request.reply = rs ++ [r] → k.out = wire rs → k.phase ≠ .reading →
      ∃ n, k.out = wire (((requestsOf i log).take n).map Request.reply) ∧
      n ≤ (requestsOf i log).length ∧ (requestsOf i log).length ≤ n + 1 ∧ (k.phase = .reading → n = (requestsOf i log).length) := by
    intro rs r h1 h2 h3
    have hlen : (requestsOf i log).length = rs.length + 1 := by
      have := congrArg List.length h1; simpa using this
    refine ⟨rs.length, ?_, by omega, by omega, fun e => absurd e h3⟩
    rw [List.map_take, h1, List.take_left]; exact h2
  unfold Written at hout
  split at hout
  · exact all hout
  · rename_i hp
    obtain ⟨rs, h1, h2⟩ := hout
    exact but rs _ h1 h2 (by rw [hp]; simp)
  · rename_i hp
    by_cases hd : Closed log i ∨ .writeErr i ∈ es
    · obtain ⟨rs, r, h1, h2⟩ := hout.1 hd
      exact but rs r h1 h2 (by rw [hp]; simp)
    · exact all (hout.2 hd)

/-- C43: a packet cut in two is the same as the whole. -/
theorem C43_packets [StdSort] (s : Server) (i : Nat) (a b : Str) (es es' : List Event) :
    run s (es ++ .recv i (a ++ b) :: es') = run s (es ++ .recv i a :: .recv i b :: es') := by
  rw [run_append, run_append]
  cases run s es with
  | none => rfl
  | some o => cases o with
    | ub => rfl
    | done t =>
      simp only [run, step]
      cases hk : t.conns[i]? with
      | none => rfl
      | some k =>
        have hlt : i < t.conns.length := by
          by_contra hn
          rw [List.getElem?_eq_none (by omega)] at hk; cases hk
        by_cases hp : k.phase = .dead
        · simp [hp]
        · simp [hp, hlt]

/-- C43: if a connection is the only one and everything it sent has been processed, then what it was answered and the final
context depend only on the bytes it sent, not on how they were cut into packets, when they arrived, or what happened
when. -/
theorem C43_only_the_bytes_matter [StdSort] {es1 es2 : List Event} {s1 s2 : Server} {k1 k2 : Conn} (hc : Reachable c)
    (h1 : run (Server.init pwd c) es1 = some (.done s1)) (h2 : run (Server.init pwd c) es2 = some (.done s2))
    (c1 : s1.conns = [k1]) (c2 : s2.conns = [k2]) (hr : received 0 es1 = received 0 es2)
    (p1 : k1.phase = .reading ∧ (10 : Byte) ∉ k1.inbuf) (p2 : k2.phase = .reading ∧ (10 : Byte) ∉ k2.inbuf) :
    k1.out = k2.out ∧ s1.ctx = s2.ctx := by
  obtain ⟨l1, e1⟩ := C44_serialized hc h1
  obtain ⟨l2, e2⟩ := C44_serialized hc h2
  have g1 : s1.conns[0]? = some k1 := by rw [c1]; rfl
  have g2 : s2.conns[0]? = some k2 := by rw [c2]; rfl
  have zero : ∀ {s : Server} {k : Conn} {l : List Request} {es}, Explains pwd c es s l → s.conns = [k] →
      requestsOf 0 l = l ∧ l.map (fun q => (q.conn, q.line)) = (l.map Request.line).map fun x => (0, x) := by
    intro s k l es h hs
    have hz : ∀ q ∈ l, q.conn = 0 := fun q hq => by
      have := h.known q hq
      rw [hs] at this
      simpa using this
    refine ⟨?_, ?_⟩
    · unfold requestsOf; rw [List.filter_eq_self]; intro q hq; simp [hz q hq]
    · rw [List.map_map]
      refine List.map_congr_left fun q hq => ?_
      simp [hz q hq]
  obtain ⟨z1, z1'⟩ := zero e1 c1
  obtain ⟨z2, z2'⟩ := zero e2 c2
  have i1 := e1.input 0 k1 g1
  have i2 := e2.input 0 k2 g2
  rw [z1] at i1
  rw [z2, ← hr, i1] at i2
  have nl : ∀ {l : List Request}, (∀ q ∈ l, (10 : Byte) ∉ q.line) → ∀ x ∈ l.map Request.line, (10 : Byte) ∉ x := by
    intro l h x hx
    obtain ⟨q, hq, rfl⟩ := List.mem_map.1 hx
    exact h q hq
  obtain ⟨hl, _⟩ := wire_inj (nl e1.oneLine) (nl e2.oneLine) p1.2 p2.2 i2
  obtain ⟨rfl, hctx⟩ := serial_det e1.serial e2.serial (by unfold lines; rw [z1', z2', hl])
  have o1 := e1.output 0 k1 g1
  have o2 := e2.output 0 k2 g2
  simp only [Written, p1.1, p2.1] at o1 o2
  exact ⟨o1.trans o2.symm, hctx⟩

example [StdSort] : (∃ t, run (Server.init [] fresh) [.accept, .recv 0 b!"Integer create: a withValue: 1;\na get;\n", .read 0, .wrote 0, .read 0, .wrote 0] =
      some (.done t) ∧ ∃ x, t.conns = [x] ∧ x.phase = .reading ∧ x.out = b!"null\n1\n") ∧
    ∃ t, run (Server.init [] fresh) [.accept, .recv 0 b!"Integer create: a withVal", .recv 0 b!"ue: 1;\na", .read 0, .wrote 0, .recv 0 b!" get;\n",
      .read 0, .wrote 0] = some (.done t) ∧ ∃ x, t.conns = [x] ∧ x.phase = .reading ∧ x.out = b!"null\n1\n" :=
  ⟨⟨⟨[], { fresh with vars := [(b!"a", .integer 1)] }, [⟨⟨true, true⟩, [], .reading, b!"null\n1\n"⟩], true⟩, by kernel_rfl, _, rfl, rfl, rfl⟩,
   ⟨[], { fresh with vars := [(b!"a", .integer 1)] }, [⟨⟨true, true⟩, [], .reading, b!"null\n1\n"⟩], true⟩, by kernel_rfl, _, rfl, rfl, rfl⟩

/-- C35, C43: on the wire every reply is exactly one line: what was written to a connection of a fresh server is a
sequence of lines without a newline inside, one for each answered request. -/
theorem C35_on_the_wire [StdSort] {prec : Int} {eps : Fl} {f q : Bool} (he : eps.toF32 = eps)
    (h : run (Server.init pwd (Ctx.init prec eps f q)) es = some (.done s)) (hk : s.conns[i]? = some k) :
    ∃ rs, k.out = wire rs ∧ (∀ r ∈ rs, (10 : Byte) ∉ r) ∧ ∃ log n, Serial pwd (Ctx.init prec eps f q) log s.ctx ∧
      rs = ((requestsOf i log).take n).map Request.reply := by
  obtain ⟨log, h1, _, h3, n, h4, _⟩ := C43_answered_in_order (.init _ _ _ _ he) h hk
  refine ⟨_, h4, ?_, log, n, h1, rfl⟩
  intro r hr
  obtain ⟨x, hx, rfl⟩ := List.mem_map.1 hr
  have hQ : ∀ b, Printable b → b ≠ 10 := by rintro b hb rfl; revert hb; decide
  have := (serial_Q hQ (.init _ _ _ _ he) (init_empty _ _ _ _) h1 fun q hq b hb e => h3 q hq (e ▸ hb)).2
  exact fun hb => this x (List.mem_of_mem_filter (List.mem_of_mem_take hx)) _ hb rfl

/-! ### C40 -/

/-- C40: a request of a connection that is not authenticated changes no variable, no setting and no other connection. -/
theorem C40_changes_nothing [StdSort] (hc : Reachable c) (h : Explains pwd c es s log) (hn : ¬ Authenticated pwd log i)
    (hst : step s (.read i) = some (.done s')) : SameData s.ctx s'.ctx ∧ ∀ j, j ≠ i → s'.conns[j]? = s.conns[j]? := by
  simp only [step] at hst
  split at hst
  · rename_i k hk
    split at hst
    · split at hst
      · rename_i line rest _
        have hs := h.session i k hk
        rcases handleLine_cases s i k line rest _ rfl (reachable_inv (serial_reachable hc h.serial)) with
          ⟨_, _, h3⟩ | ⟨_, _, h3⟩ | ⟨h1, c', t, r, h2, h3⟩ <;> rw [h3] at hst <;> cases hst
        · exact ⟨⟨rfl, rfl⟩, fun j hj => List.getElem?_set_ne (Ne.symm hj)⟩
        · rw [hs.1] at h1
          exact ⟨toConnection_sameData (h1.resolve_left hn) h2, fun j hj => List.getElem?_set_ne (Ne.symm hj)⟩
      · cases hst
    · cases hst
  · cases hst

/-- C40: the reply to a request of a connection that is not authenticated depends only on the password and the line: two
servers with the same password, whatever data they hold and whatever other connections do, reply the same. -/
theorem C40_replies_do_not_depend_on_data [StdSort] {c1 c1' c2 c2' : Ctx} {l1 l1' l2 l2' : List Request} {q q' : Request}
    (h1 : Serial pwd c1 (l1 ++ q :: l1') c1') (h2 : Serial pwd c2 (l2 ++ q' :: l2') c2') (n1 : ¬ Authenticated pwd l1 q.conn)
    (n2 : ¬ Authenticated pwd l2 q'.conn) (hl : q.line = q'.line) : q.reply = q'.reply := by
  have one : ∀ {c c' : Ctx} {l l' : List Request} {q : Request}, Serial pwd c (l ++ q :: l') c' → ¬ Authenticated pwd l q.conn →
      (∃ n a, Statement q.line b!"Connection" n a ∧ q.reply = connectionReply pwd n a) ∨
      (¬ ToConnection q.line ∧ q.reply = b!"AuthenticationError: not authenticated.") := by
    intro c c' l l' q h hn
    obtain ⟨d, hd⟩ := serial_prefix (l1 := l ++ [q]) (l2 := l') (by simpa using h)
    obtain ⟨x, _, _, ⟨s, s', _, h2, h3⟩ | ⟨_, h2, h3, _⟩⟩ := serial_snoc hd
    · obtain ⟨n, a, hs⟩ := h2.resolve_left hn
      obtain ⟨t, e⟩ := toConnection_reply x s hs (pwd := pwd)
      rw [e] at h3
      simp only [Outcome.done.injEq, Prod.mk.injEq] at h3
      exact .inl ⟨n, a, hs, h3.2.2.symm⟩
    · exact .inr ⟨h2, h3⟩
  rcases one h1 n1 with ⟨n, a, hs, e1⟩ | ⟨hs, e1⟩ <;> rcases one h2 n2 with ⟨m, b, ht, e2⟩ | ⟨ht, e2⟩
  · rw [hl] at hs
    obtain ⟨_, rfl, rfl⟩ := statement_same hs ht
    rw [e1, e2]
  · rw [hl] at hs; exact absurd ⟨n, a, hs⟩ ht
  · rw [← hl] at ht; exact absurd ⟨m, b, ht⟩ hs
  · rw [e1, e2]

/-- C40: without the requests of a connection that never authenticated, all other connections get exactly the same replies
and the data is the same in the end. -/
theorem C40_noninterference [StdSort] {c' : Ctx} (h : Serial pwd c log c') (hn : ¬ Authenticated pwd log i) :
    ∃ d, Serial pwd c (log.filter fun q => q.conn != i) d ∧ SameData c' d := serial_purge h i hn

/-- In the demonstration the first request of client 0 comes from a connection that is not authenticated. -/
example [StdSort] : ∃ s log, run (Server.init b!"pw" fresh) (demoEvents.take 9) = some (.done s) ∧ Explains b!"pw" fresh (demoEvents.take 9) s log ∧
    ¬ Authenticated b!"pw" log 0 ∧ ∃ s', step s (.read 0) = some (.done s') := by
  have hr : run (Server.init b!"pw" fresh) (demoEvents.take 9) = some (.done ⟨b!"pw", { fresh with vars := [(b!"i", .integer 42)] }, [
      ⟨⟨true, false⟩, b!"i get;\nConnection authenticateWithPassword: \"pw\";\ni get;\nhalf", .reading, []⟩,
      ⟨⟨true, true⟩, [], .writing b!"null", b!"null\n"⟩], true⟩) := by kernel_rfl
  obtain ⟨log, h⟩ := C44_serialized fresh_reachable hr
  refine ⟨_, log, hr, h, ?_, ?_⟩
  · intro ha
    have := (h.session 0 _ rfl).1.2 ha
    cases this
  · exact ⟨⟨b!"pw", { fresh with vars := [(b!"i", .integer 42)] }, [
      ⟨⟨true, false⟩, b!"Connection authenticateWithPassword: \"pw\";\ni get;\nhalf",
        .writing b!"AuthenticationError: not authenticated.", []⟩,
      ⟨⟨true, true⟩, [], .writing b!"null", b!"null\n"⟩], true⟩, by kernel_rfl⟩

/-! ### C41 -/

/-- C41: a connection is authenticated iff there is no password or it has itself presented the password; observed from
outside: a request that is not a statement to `Connection` is answered "not authenticated" iff neither is the case. -/
theorem C41_only_the_password [StdSort] {c' : Ctx} {l l' : List Request} {q : Request} (hc : Reachable c)
    (h : Serial pwd c (l ++ q :: l') c') (hq : ¬ ToConnection q.line) :
    q.reply = b!"AuthenticationError: not authenticated." ↔ ¬ (pwd = [] ∨ ∃ x ∈ l, x.conn = q.conn ∧ Presents pwd x.line) := by
  obtain ⟨d, hd⟩ := serial_prefix (l1 := l ++ [q]) (l2 := l') (by simpa using h)
  obtain ⟨x, hx, _, ⟨s, s', _, h2, h3⟩ | ⟨h1, _, h3, _⟩⟩ := serial_snoc hd
  · have ha := h2.resolve_right hq
    refine ⟨fun e => ?_, fun hn => absurd ha hn⟩
    exfalso
    obtain ⟨y, _, hdo | ⟨ex, hdo, hr⟩⟩ := execute_done (reachable_inv (serial_reachable hc hx)) h3
    · exact (okReply_not_error (does_ok hdo)).1 (by rw [e]; decide)
    · rw [e] at hr
      cases ex <;> first | (revert hr; decide) | skip
      generalize hy : Run.thr (y, some s') Exc.notAuthenticated = z at hdo
      cases hdo with
      | context _ h => cases h <;> cases hy
      | connection _ _ h => cases h <;> cases hy
      | _ => cases hy
  · exact ⟨fun _ => h1, fun _ => h3⟩

/-- C41: what happens on a server: the sessions the server keeps are authenticated exactly then. -/
theorem C41_sessions [StdSort] (h : Explains pwd c es s log) (hk : s.conns[i]? = some k) :
    k.sess.authed = true ↔ pwd = [] ∨ ∃ x ∈ log, x.conn = i ∧ Presents pwd x.line := (h.session i k hk).1

/-- C41: authentication is never lost, and requests of other connections do not matter. -/
theorem C41_kept_and_own {l l' : List Request} : (Authenticated pwd l i → Authenticated pwd (l ++ l') i) ∧
    (Authenticated pwd l i ↔ Authenticated pwd (requestsOf i l) i) := by
  constructor
  · rintro (h | ⟨q, hq, h⟩)
    · exact .inl h
    · exact .inr ⟨q, List.mem_append_left _ hq, h⟩
  · refine or_congr Iff.rfl ⟨?_, ?_⟩
    · rintro ⟨q, hq, h1, h2⟩; exact ⟨q, List.mem_filter.2 ⟨hq, by simp [h1]⟩, h1, h2⟩
    · rintro ⟨q, hq, h⟩; exact ⟨q, List.mem_of_mem_filter hq, h⟩

/-- C41: the reply to an attempt to authenticate: "null" iff the argument is a literal that denotes the password. -/
theorem C41_attempts [StdSort] {c' : Ctx} {l l' : List Request} {q : Request} {a v : Str} (h : Serial pwd c (l ++ q :: l') c')
    (hq : Statement q.line b!"Connection" b!"authenticateWithPassword:" [a]) (hv : StringLiteral a v) :
    q.reply = if v = pwd then b!"null" else b!"AuthenticationError: wrong password." := by
  obtain ⟨d, hd⟩ := serial_prefix (l1 := l ++ [q]) (l2 := l') (by simpa using h)
  obtain ⟨x, hx, _, ⟨s, s', _, h2, h3⟩ | ⟨h1, h2, h3, _⟩⟩ := serial_snoc hd
  · rw [execute_toConnection x s hq] at h3
    have hdo := session_does pwd s b!"authenticateWithPassword:" [a]
    have uniq : ∀ {w}, StringLiteral a w → v = w := by
      intro w hw
      have := denotes_unique (.string hv) (.string hw)
      injection this
    generalize hy : s.receive pwd b!"authenticateWithPassword:" [a] = y at hdo
    rw [hy] at h3
    generalize hz : b!"authenticateWithPassword:" = z at hdo
    cases hdo with
    | close => exact absurd hz (by decide)
    | auth hl =>
      rw [if_pos (uniq hl)]
      simp only [finish, onConn, Outcome.done.injEq, Prod.mk.injEq] at h3
      exact h3.2.2.symm
    | wrong hl hne =>
      rw [if_neg (by rw [uniq hl]; exact hne)]
      simp only [finish, onConn, Outcome.done.injEq, Prod.mk.injEq] at h3
      exact h3.2.2.symm
    | invalid hn =>
      obtain ⟨b, e1, hb, _⟩ := hv
      exact absurd ⟨b, e1, hb⟩ hn
    | wrongNumber hn => exact absurd rfl hn
    | noMessage _ hn => exact absurd hz.symm hn
  · exact absurd ⟨_, _, hq⟩ h2

example : StringLiteral b!"\"pw\"" b!"pw" ∧ Presents b!"pw" b!"Connection authenticateWithPassword: \"pw\";" := by
  have : StringLiteral b!"\"pw\"" b!"pw" := (quoted_literal_iff b!"pw").2 ((evenRuns_iff _).1 (by
    refine ⟨?_, by decide⟩
    intro p q e
    have : c!"\"" ∈ b!"pw" := by rw [e]; simp
    exact absurd this (by decide)))
  exact ⟨this, _, reads (by decide +kernel), this⟩

/-! ### C42 -/

/-- C42: a password can be presented by some request line iff it contains no newline and has an even number of
backslashes before every quote and at its end. -/
theorem C42_enterable_passwords : (∃ line, (10 : Byte) ∉ line ∧ Presents pwd line) ↔ EvenRuns pwd ∧ (10 : Byte) ∉ pwd := by
  constructor
  · rintro ⟨line, hn, a, hs, hl⟩
    refine ⟨(evenRuns_iff pwd).2 ((literal_iff pwd).1 ⟨a, hl⟩), ?_⟩
    have := statement_args (Q := fun b => b ≠ 10) hs (fun b hb e => hn (e ▸ hb)) a (by simp)
    exact fun hb => stringLit_Q hl this _ hb rfl
  · rintro ⟨he, hn⟩
    have hl := (quoted_literal_iff pwd).2 ((evenRuns_iff pwd).1 he)
    obtain ⟨b, e, hb, hu⟩ := hl
    have hst : Statement (b!"Connection authenticateWithPassword: " ++ (quoted pwd ++ b!";")) b!"Connection" b!"authenticateWithPassword:" [quoted pwd] := by
      refine ⟨[], 32, [], b!"authenticateWithPassword: " ++ quoted pwd, [], [], by simp, by simp [Spaces], .inl rfl, .inl rfl, by simp [Spaces], .inr ?_, by simp [Spaces], by simp [Spaces]⟩
      have ht : Token b!"authenticateWithPassword:" :=
        ⟨b!"authenticateWithPassword", (isIdentifier_iff _).1 (by decide), .inl rfl⟩
      have := KeywordMessage.one (tok := b!"authenticateWithPassword:") (w := [32]) (arg := quoted pwd) ht (by simp [Spaces, Ws])
        (.inl (.inr (.inr (.inr (.inr ⟨b, e, hb⟩)))))
      simpa using this
    refine ⟨_, ?_, _, hst, ⟨b, e, hb, hu⟩⟩
    have hq : AllB (fun b => b ≠ 10) (quoted pwd) :=
      allB_quoted (Q := fun b => b ≠ 10) (by rintro b hb rfl; revert hb; decide) fun b hb e => hn (e ▸ hb)
    simp only [List.mem_append, not_or]
    exact ⟨by decide, fun h => hq _ h rfl, by decide⟩

/-- C42: so on a server whose password is not of that form no connection is ever authenticated: nothing but "not
authenticated" is ever answered to a request that is not a statement to `Connection`. -/
theorem C42_locked_out [StdSort] {q : Request} (hc : Reachable c) (hp : pwd ≠ []) (hn : ¬ (EvenRuns pwd ∧ (10 : Byte) ∉ pwd))
    (h : Explains pwd c es s log) (hq : q ∈ log) (hl : ¬ ToConnection q.line) : q.reply = b!"AuthenticationError: not authenticated." := by
  obtain ⟨l, l', rfl⟩ := List.append_of_mem hq
  refine (C41_only_the_password hc h.serial hl).2 ?_
  rintro (e | ⟨x, hx, _, hx2⟩)
  · exact hp e
  · exact hn (C42_enterable_passwords.1 ⟨_, h.oneLine x (by simp [hx]), hx2⟩)

example : ¬ EvenRuns b!"secret\\" ∧ EvenRuns b!"secret" := by
  refine ⟨fun h => by have := h.2; revert this; decide, ?_, by decide⟩
  intro p q e
  have : c!"\"" ∈ b!"secret" := by rw [e]; simp
  exact absurd this (by decide)

/-! ### C45 -/

/-- C45: after a connection has executed `Connection close;` it makes no further request. -/
theorem C45_no_request_after_close [StdSort] {c' : Ctx} {l l' : List Request} {q : Request} (h : Serial pwd c (l ++ q :: l') c')
    (hq : Closes q.line) : ∀ x ∈ l', x.conn ≠ q.conn := by
  intro x hx
  obtain ⟨l1, l2, rfl⟩ := List.append_of_mem hx
  obtain ⟨d, hd⟩ := serial_prefix (l1 := (l ++ q :: l1) ++ [x]) (l2 := l2) (by simpa using h)
  obtain ⟨_, _, hcl, _⟩ := serial_snoc hd
  intro e
  exact hcl ⟨q, by simp, e.symm, hq⟩

/-- Nothing happens to a connection that has ended. -/
theorem dead_step [StdSort] {e : Event} (hk : s.conns[i]? = some k) (hp : k.phase = .dead) (hst : step s e = some (.done s')) :
    s'.conns[i]? = some k := by
  have set : ∀ j k', j ≠ i → (s.conns.set j k')[i]? = some k := fun j k' hj => by rw [List.getElem?_set_ne hj]; exact hk
  cases e with
  | accept =>
    simp only [step] at hst; split at hst <;> cases hst
    have hlt : i < s.conns.length := by
      by_contra hn
      rw [List.getElem?_eq_none (by omega)] at hk; cases hk
    rw [List.getElem?_append_left hlt]; exact hk
  | acceptErr => simp only [step] at hst; split at hst <;> cases hst; exact hk
  | recv j b =>
    simp only [step] at hst
    split at hst
    · rename_i x hx
      split at hst <;> cases hst
      rename_i hpx
      refine set _ _ ?_
      rintro rfl
      rw [hk] at hx; cases hx; exact hpx hp
    · cases hst
  | read j =>
    simp only [step] at hst
    split at hst
    · rename_i x hx
      split at hst
      · rename_i hpx
        have hj : j ≠ i := by rintro rfl; rw [hk] at hx; cases hx; rw [hp] at hpx; cases hpx
        split at hst
        · rename_i line rest _
          obtain ⟨a, _, hh⟩ := handleLine_actor s j x line rest
          rw [hh] at hst
          unfold handleActor at hst
          split at hst
          · split at hst <;> cases hst
            exact set _ _ hj
          · cases hst; exact set _ _ hj
        · cases hst
      · cases hst
    · cases hst
  | readErr j =>
    simp only [step] at hst
    split at hst
    · rename_i x hx
      split at hst <;> cases hst
      rename_i hpx
      refine set _ _ ?_
      rintro rfl
      rw [hk] at hx; cases hx; rw [hp] at hpx; cases hpx
    · cases hst
  | wrote j =>
    simp only [step] at hst
    split at hst
    · rename_i x hx
      split at hst
      · rename_i hpx
        split at hst <;> cases hst
        refine set _ _ ?_
        rintro rfl
        rw [hk] at hx; cases hx; rw [hp] at hpx; cases hpx
      · cases hst
    · cases hst
  | wroteShort j =>
    simp only [step] at hst
    split at hst
    · split at hst <;> cases hst
    · cases hst
  | writeErr j =>
    simp only [step] at hst
    split at hst
    · rename_i x hx
      split at hst
      · rename_i hpx
        cases hst
        refine set _ _ ?_
        rintro rfl
        rw [hk] at hx; cases hx; rw [hp] at hpx; cases hpx
      · cases hst
    · cases hst

theorem dead_run [StdSort] (hk : s.conns[i]? = some k) (hp : k.phase = .dead) (hr : run s es = some (.done s')) :
    s'.conns[i]? = some k := by
  induction es generalizing s with
  | nil => cases hr; exact hk
  | cons e es ih =>
    simp only [run] at hr
    cases hst : step s e with
    | none => rw [hst] at hr; cases hr
    | some o => cases o with
      | ub => rw [hst] at hr; cases hr
      | done s1 => rw [hst] at hr; exact ih (dead_step hk hp hst) hr

/-- C45: nothing is written to a connection after `close`, not even the reply to `close`: what has been written are the
replies to its earlier requests, and no later event changes anything about the connection. -/
theorem C45_nothing_after_close [StdSort] (h : Explains pwd c es s log) (hk : s.conns[i]? = some k) (hcl : Closed log i)
    (hr : run s es' = some (.done s')) :
    s'.conns[i]? = some k ∧ ∃ l q, requestsOf i log = l ++ [q] ∧ Closes q.line ∧ k.out = wire (l.map Request.reply) := by
  have hp := (h.ended i k hk).2 (.inl hcl)
  refine ⟨dead_run hk hp hr, ?_⟩
  have hout := h.output i k hk
  simp only [Written, hp] at hout
  obtain ⟨rs, r, h1, h2⟩ := hout.1 (.inl hcl)
  obtain ⟨q, hq, hqi, hq2⟩ := hcl
  obtain ⟨l, l', rfl⟩ := List.append_of_mem hq
  have hno := C45_no_request_after_close h.serial hq2
  have e : requestsOf i (l ++ q :: l') = requestsOf i l ++ [q] := by
    rw [show l ++ q :: l' = (l ++ [q]) ++ l' by simp, requestsOf_others (by rw [← hqi]; exact hno), requestsOf_append, ← hqi, requestsOf_self]
  refine ⟨_, q, e, hq2, ?_⟩
  rw [e, List.map_append] at h1
  obtain ⟨e1, _⟩ := List.append_inj' h1 rfl
  rw [h2, e1]

example [StdSort] : run (Server.init [] fresh) [.accept, .recv 0 b!"Context listVariables;\nConnection close;\nContext listVariables;\n", .read 0, .wrote 0, .read 0] =
    some (.done ⟨[], fresh, [⟨⟨false, true⟩, b!"Context listVariables;\n", .dead, b!"[]\n"⟩], true⟩) := by kernel_rfl

/-! ### C46 -/

/-- C46: the next accept can complete iff no accept has failed so far. -/
theorem C46_accepting [StdSort] (hc : Reachable c) (h : run (Server.init pwd c) es = some (.done s)) :
    (∃ s', run (Server.init pwd c) (es ++ [.accept]) = some (.done s') ∧ s'.conns.length = s.conns.length + 1) ↔ .acceptErr ∉ es := by
  obtain ⟨log, hl⟩ := C44_serialized hc h
  rw [← hl.accepting, run_append, h]
  simp only [run_single, step]
  constructor
  · rintro ⟨s', h', _⟩
    split at h'
    · assumption
    · cases h'
  · intro ha
    rw [if_pos ha]
    exact ⟨_, rfl, by simp⟩

/-- C46: after a failed accept no schedule contains another accept. -/
theorem C46_never_again [StdSort] {es1 es2 es3 : List Event} (hc : Reachable c)
    (h : run (Server.init pwd c) (es1 ++ .acceptErr :: es2 ++ .accept :: es3) = some (.done s)) : False := by
  rw [show es1 ++ .acceptErr :: es2 ++ .accept :: es3 = (es1 ++ .acceptErr :: es2 ++ [.accept]) ++ es3 by simp, run_append] at h
  cases h1 : run (Server.init pwd c) (es1 ++ .acceptErr :: es2 ++ [.accept]) with
  | none => rw [h1] at h; cases h
  | some o => cases o with
    | ub => rw [h1] at h; cases h
    | done s1 =>
      rw [run_append] at h1
      cases h2 : run (Server.init pwd c) (es1 ++ .acceptErr :: es2) with
      | none => rw [h2] at h1; cases h1
      | some o => cases o with
        | ub => rw [h2] at h1; cases h1
        | done s2 =>
          obtain ⟨log, hl⟩ := C44_serialized hc h2
          rw [h2] at h1
          simp only [run_single, step] at h1
          split at h1
          · rename_i ha
            exact hl.accepting.1 ha (by simp)
          · cases h1

example [StdSort] : ∃ s, run (Server.init [] fresh) [.accept, .acceptErr, .recv 0 b!"x"] = some (.done s) := ⟨_, rfl⟩

/-! ### C47 -/

/-- The connection still waits for the write, or it has ended; nothing more was written. -/
theorem stuck_step [StdSort] {e : Event} {r : Str} (hk : s.conns[i]? = some k) (hp : k.phase = .writing r) (hr : 65536 < r.length + 1)
    (hst : step s e = some (.done s')) : ∃ k', s'.conns[i]? = some k' ∧ k'.out = k.out ∧ (k'.phase = .writing r ∨ k'.phase = .dead) := by
  have hlt : i < s.conns.length := by
    by_contra hn
    rw [List.getElem?_eq_none (by omega)] at hk; cases hk
  have set : ∀ j k', j ≠ i → ∃ x, (s.conns.set j k')[i]? = some x ∧ x.out = k.out ∧ (x.phase = .writing r ∨ x.phase = .dead) :=
    fun j k' hj => ⟨k, by rw [List.getElem?_set_ne hj]; exact hk, rfl, .inl hp⟩
  have own : ∀ k' : Conn, k'.out = k.out → (k'.phase = .writing r ∨ k'.phase = .dead) →
      ∃ x, (s.conns.set i k')[i]? = some x ∧ x.out = k.out ∧ (x.phase = .writing r ∨ x.phase = .dead) :=
    fun k' h1 h2 => ⟨k', by simp [hlt], h1, h2⟩
  cases e with
  | accept =>
    simp only [step] at hst; split at hst <;> cases hst
    exact ⟨k, by rw [List.getElem?_append_left hlt]; exact hk, rfl, .inl hp⟩
  | acceptErr => simp only [step] at hst; split at hst <;> cases hst; exact ⟨k, hk, rfl, .inl hp⟩
  | recv j b =>
    simp only [step] at hst
    split at hst
    · rename_i x hx
      split at hst <;> cases hst
      by_cases hj : j = i
      · subst hj; rw [hk] at hx; cases hx; exact own _ rfl (.inl hp)
      · exact set _ _ hj
    · cases hst
  | read j =>
    simp only [step] at hst
    split at hst
    · rename_i x hx
      split at hst
      · rename_i hpx
        have hj : j ≠ i := by rintro rfl; rw [hk] at hx; cases hx; rw [hp] at hpx; cases hpx
        split at hst
        · rename_i line rest _
          obtain ⟨a, _, hh⟩ := handleLine_actor s j x line rest
          rw [hh] at hst
          unfold handleActor at hst
          split at hst
          · split at hst <;> cases hst
            exact set _ _ hj
          · cases hst; exact set _ _ hj
        · cases hst
      · cases hst
    · cases hst
  | readErr j =>
    simp only [step] at hst
    split at hst
    · rename_i x hx
      split at hst <;> cases hst
      rename_i hpx
      refine set _ _ ?_
      rintro rfl
      rw [hk] at hx; cases hx; rw [hp] at hpx; cases hpx
    · cases hst
  | wrote j =>
    simp only [step] at hst
    split at hst
    · rename_i x hx
      split at hst
      · rename_i r' hpx
        split at hst <;> cases hst
        rename_i hlen
        refine set _ _ ?_
        rintro rfl
        rw [hk] at hx; cases hx; rw [hp] at hpx; cases hpx; omega
      · cases hst
    · cases hst
  | wroteShort j =>
    simp only [step] at hst
    split at hst
    · split at hst <;> cases hst
    · cases hst
  | writeErr j =>
    simp only [step] at hst
    split at hst
    · rename_i x hx
      split at hst
      · cases hst
        by_cases hj : j = i
        · subst hj; rw [hk] at hx; cases hx; exact own _ rfl (.inr rfl)
        · exact set _ _ hj
      · cases hst
    · cases hst

/-- C47: nothing is ever written to a connection again once it has a reply pending that is longer than 65535 bytes. -/
theorem C47_long_replies_are_not_delivered [StdSort] {r : Str} (hk : s.conns[i]? = some k) (hp : k.phase = .writing r)
    (hr : 65536 < r.length + 1) (h : run s es = some (.done s')) :
    ∃ k', s'.conns[i]? = some k' ∧ k'.out = k.out ∧ k'.phase ≠ .reading := by
  suffices ∃ k', s'.conns[i]? = some k' ∧ k'.out = k.out ∧ (k'.phase = .writing r ∨ k'.phase = .dead) by
    obtain ⟨k', h1, h2, h3⟩ := this
    exact ⟨k', h1, h2, by rcases h3 with h3 | h3 <;> rw [h3] <;> simp⟩
  induction es generalizing s k with
  | nil => cases h; exact ⟨k, hk, rfl, .inl hp⟩
  | cons e es ih =>
    simp only [run] at h
    cases hst : step s e with
    | none => rw [hst] at h; cases h
    | some o => cases o with
      | ub => rw [hst] at h; cases h
      | done s1 =>
        rw [hst] at h
        obtain ⟨k1, h1, h2, h3 | h3⟩ := stuck_step hk hp hr hst
        · rw [← h2]; exact ih h1 h3 h
        · exact ⟨k1, dead_run h1 h3 h, h2, .inr h3⟩

/-- C47: a reply that is not taken in one piece is undefined behaviour. -/
theorem C47_partial_writes_are_undefined [StdSort] {r : Str} (hk : s.conns[i]? = some k) (hp : k.phase = .writing r) :
    step s (.wroteShort i) = some .ub := by
  simp only [step, hk, hp]

/-- C47: a shorter reply can be delivered, and then it is appended to what was written, once, and the connection waits for
the next request. -/
theorem C47_short_replies_can_be_delivered [StdSort] {r : Str} (hk : s.conns[i]? = some k) (hp : k.phase = .writing r)
    (hr : r.length + 1 ≤ 65536) :
    ∃ s', step s (.wrote i) = some (.done s') ∧
      s'.conns[i]? = some { k with phase := .reading, out := k.out ++ (r ++ [10]) } ∧ ∀ j, j ≠ i → s'.conns[j]? = s.conns[j]? := by
  have hlt : i < s.conns.length := by
    by_contra hn
    rw [List.getElem?_eq_none (by omega)] at hk; cases hk
  refine ⟨{ s with conns := s.conns.set i { k with phase := .reading, out := k.out ++ (r ++ [10]) } },
    by simp only [step, hk, hp, if_pos hr], by simp [hlt], fun j hj => List.getElem?_set_ne (Ne.symm hj)⟩

example [StdSort] : demoServer.conns[0]? = some
    { sess := ⟨true, true⟩, inbuf := b!"half", phase := .writing b!"42", out := b!"AuthenticationError: not authenticated.\nnull\n" } := rfl

/-- A state with a long reply pending, reached by requests. -/
theorem long_reply_reachable [StdSort] (v : Str) :
    Reachable { fresh with vars := [(b!"x", .string v)] } → ∃ s, run (Server.init [] { fresh with vars := [(b!"x", .string v)] })
      [.accept, .recv 0 b!"x get;\n", .read 0] = some (.done s) ∧ ∃ k, s.conns[0]? = some k ∧ k.phase = .writing (quoted v) := by
  intro hc
  refine ⟨⟨[], { fresh with vars := [(b!"x", .string v)] }, [⟨⟨true, true⟩, [], .writing (quoted v), []⟩], true⟩, by kernel_rfl, _, rfl, rfl⟩

/-! ### C48 -/

/-- C48: a connection that waits for a request and has a complete line can have it processed now, and if that is undefined
behaviour then because executing that request is. -/
theorem C48_complete_lines_can_be_executed [StdSort] (hc : Reachable c) (h : run (Server.init pwd c) es = some (.done s))
    (hk : s.conns[i]? = some k) (hp : k.phase = .reading) (hn : (10 : Byte) ∈ k.inbuf) :
    ∃ line rest, k.inbuf = line ++ 10 :: rest ∧ (10 : Byte) ∉ line ∧
      ((∃ s' k', step s (.read i) = some (.done s') ∧ s'.conns[i]? = some k' ∧ k'.inbuf = rest ∧ k'.phase ≠ .reading) ∨
        (step s (.read i) = some .ub ∧ execute pwd s.ctx (some k.sess) line = .ub)) := by
  obtain ⟨log, hl⟩ := C44_serialized hc h
  have hlt : i < s.conns.length := by
    by_contra hn
    rw [List.getElem?_eq_none (by omega)] at hk; cases hk
  cases hs : splitLine k.inbuf with
  | none => exact absurd hn (splitLine_none.1 hs)
  | some p =>
    obtain ⟨line, rest⟩ := p
    obtain ⟨e, hnl⟩ := splitLine_some hs
    refine ⟨line, rest, e, hnl, ?_⟩
    have hst : step s (.read i) = some (handleLine s i k line rest) := by simp only [step, hk, hp, if_true, hs]
    rcases handleLine_cases s i k line rest _ rfl (reachable_inv (serial_reachable hc hl.serial)) with
      ⟨_, _, h3⟩ | ⟨_, h2, h3⟩ | ⟨_, c', t, r, h2, h3⟩ <;> rw [h3] at hst
    · exact .inl ⟨_, _, hst, List.getElem?_set_self hlt, rfl, by simp⟩
    · rw [hl.password] at h2; exact .inr ⟨hst, h2⟩
    · refine .inl ⟨_, _, hst, List.getElem?_set_self hlt, rfl, ?_⟩
      simp only []
      split <;> simp

/-- C48: a connection with a reply pending can have its write completed (in one of the three ways). -/
theorem C48_pending_writes_can_complete [StdSort] {r : Str} (hk : s.conns[i]? = some k) (hp : k.phase = .writing r) :
    (r.length + 1 ≤ 65536 → ∃ s', step s (.wrote i) = some (.done s')) ∧ (∃ s', step s (.writeErr i) = some (.done s')) := by
  exact ⟨fun hr => ⟨{ s with conns := s.conns.set i { k with phase := .reading, out := k.out ++ (r ++ [10]) } },
    by simp only [step, hk, hp, if_pos hr]⟩, { s with conns := s.conns.set i { k with phase := .dead } }, by simp only [step, hk, hp]⟩

/-- The event is not about connection `i`. -/
def NotAbout (i : Nat) : Event → Prop
  | .recv j _ => j ≠ i
  | .read j => j ≠ i
  | .readErr j => j ≠ i
  | .wrote j => j ≠ i
  | .wroteShort j => j ≠ i
  | .writeErr j => j ≠ i
  | _ => True

/-- C48: whatever happens to other connections, nothing changes for this one, so it can still do what it could do. -/
theorem C48_others_cannot_interfere [StdSort] (hk : s.conns[i]? = some k) (hn : ∀ e ∈ es, NotAbout i e)
    (h : run s es = some (.done s')) : s'.conns[i]? = some k := by
  have one : ∀ {s s' : Server} {e : Event}, s.conns[i]? = some k → NotAbout i e → step s e = some (.done s') → s'.conns[i]? = some k := by
    intro s s' e hk hn hst
    have set : ∀ j k', j ≠ i → (s.conns.set j k')[i]? = some k := fun j k' hj => by rw [List.getElem?_set_ne hj]; exact hk
    cases e with
    | accept =>
      simp only [step] at hst; split at hst <;> cases hst
      have hlt : i < s.conns.length := by
        by_contra hn
        rw [List.getElem?_eq_none (by omega)] at hk; cases hk
      rw [List.getElem?_append_left hlt]; exact hk
    | acceptErr => simp only [step] at hst; split at hst <;> cases hst; exact hk
    | recv j b => simp only [step] at hst; split at hst <;> (try split at hst) <;> cases hst; exact set _ _ hn
    | read j =>
      simp only [step] at hst
      split at hst <;> (try split at hst) <;> (try split at hst) <;> (try cases hst)
      rename_i x _ _ _ line rest _
      obtain ⟨a, _, hh⟩ := handleLine_actor s j x line rest
      rw [hh] at hst
      unfold handleActor at hst
      split at hst
      · split at hst <;> cases hst
        exact set _ _ hn
      · cases hst; exact set _ _ hn
    | readErr j => simp only [step] at hst; split at hst <;> (try split at hst) <;> cases hst; exact set _ _ hn
    | wrote j =>
      simp only [step] at hst
      split at hst <;> (try split at hst) <;> (try split at hst) <;> cases hst
      exact set _ _ hn
    | wroteShort j => simp only [step] at hst; split at hst <;> (try split at hst) <;> cases hst
    | writeErr j => simp only [step] at hst; split at hst <;> (try split at hst) <;> cases hst; exact set _ _ hn
  induction es generalizing s with
  | nil => cases h; exact hk
  | cons e es ih =>
    simp only [run] at h
    cases hst : step s e with
    | none => rw [hst] at h; cases h
    | some o => cases o with
      | ub => rw [hst] at h; cases h
      | done s1 => rw [hst] at h; exact ih (one hk (hn e (by simp)) hst) (fun x hx => hn x (by simp [hx])) h

/-! ### C52 -/

/-- C52: the process ends exactly when an accept has failed and every connection has ended, by its own `Connection close;` or
by an error of a read or write. -/
theorem C52_when_the_process_ends [StdSort] (h : Explains pwd c es s log) :
    s.stopped ↔ .acceptErr ∈ es ∧ ∀ i, i < s.conns.length → Closed log i ∨ .readErr i ∈ es ∨ .writeErr i ∈ es := by
  have ha := h.accepting
  have hdead : (∀ k ∈ s.conns, k.phase = .dead) ↔ ∀ i, i < s.conns.length → Closed log i ∨ .readErr i ∈ es ∨ .writeErr i ∈ es := by
    constructor
    · intro hk i hi
      exact (h.ended i _ (List.getElem?_eq_getElem hi)).1 (hk _ (List.getElem_mem hi))
    · intro hk k hm
      obtain ⟨i, hi, rfl⟩ := List.getElem_of_mem hm
      exact (h.ended i _ (List.getElem?_eq_getElem hi)).2 (hk i hi)
  unfold Server.stopped
  rw [hdead]
  refine and_congr_left fun _ => ?_
  rw [← Bool.not_eq_true, ha, not_not]

/-- C52: in particular it runs as long as no accept fails, whatever the clients do. -/
theorem C52_runs_while_accepting [StdSort] (hc : Reachable c) (h : run (Server.init pwd c) es = some (.done s)) (hn : .acceptErr ∉ es) :
    ¬ s.stopped := by
  obtain ⟨log, hl⟩ := C44_serialized hc h
  rw [C52_when_the_process_ends hl]
  exact fun h => hn h.1

/-- C52: when it has ended nothing happens any more, and as long as it has not ended something can still happen. -/
theorem C52_ended_iff_no_event [StdSort] (s : Server) : s.stopped ↔ ∀ e, step s e = none := by
  constructor
  · rintro ⟨ha, hd⟩ e
    have dead : ∀ {i : Nat} {k : Conn}, s.conns[i]? = some k → k.phase = .dead := fun hk => hd _ (List.mem_of_getElem? hk)
    cases e with
    | accept => simp [step, ha]
    | acceptErr => simp [step, ha]
    | _ i =>
      cases hk : s.conns[i]? with
      | none => simp only [step, hk]
      | some k => simp [step, hk, dead hk]
  · intro h
    refine ⟨?_, fun k hk => ?_⟩
    · have := h .acceptErr
      simp only [step] at this
      split at this
      · cases this
      · rename_i hn; simpa using hn
    · obtain ⟨i, hi, rfl⟩ := List.getElem_of_mem hk
      have := h (.recv i [])
      simp only [step, List.getElem?_eq_getElem hi] at this
      split at this
      · assumption
      · cases this

/-- A server that has ended. -/
example [StdSort] : ∃ s, run (Server.init [] fresh) [.accept, .acceptErr, .recv 0 b!"Connection close;\n", .read 0] = some (.done s) ∧ s.stopped := by
  refine ⟨⟨[], fresh, [⟨⟨false, true⟩, [], .dead, []⟩], false⟩, by kernel_rfl, rfl, ?_⟩
  intro k hk
  simp only [List.mem_singleton] at hk
  subst hk; rfl

end Knuckle.Props
