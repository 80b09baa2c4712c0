/-
C87: what can be learned about the password.
-/
import Verif.Props.Anonymous

namespace Knuckle.Props

open Spec

variable {p q : Str} {c d : Ctx} {s t : Server} {i j : Nat} {es : List Event}

/-- A statement to the connection that presents neither of two passwords is executed alike with both. -/
theorem receive_guess {x : Session} {line n : Str} {l : List Str} (h : Statement line b!"Connection" n l) (hp : ¬ Presents p line)
    (hq : ¬ Presents q line) : x.receive p n l = x.receive q n l := by
  have h1 := session_does p x n l
  have h2 := session_does q x n l
  generalize x.receive p n l = y at h1
  generalize x.receive q n l = z at h2
  have uniq : ∀ {a v w : Str}, StringLiteral a v → StringLiteral a w → v = w := by
    intro a v w hv hw
    have := denotes_unique (.string hv) (.string hw)
    injection this
  have val : ∀ {a v : Str}, StringLiteral a v → StringValue a := by
    rintro a v ⟨b, e, hb, _⟩; exact ⟨b, e, hb⟩
  cases h1 with
  | close => generalize hz : b!"close" = m at h2; cases h2 <;> first | rfl | exact absurd hz (by decide) | (subst hz; contradiction)
  | auth hl => exact absurd ⟨_, h, hl⟩ hp
  | wrong hl hne =>
    generalize hz : b!"authenticateWithPassword:" = m at h2
    cases h2 with
    | close => exact absurd hz (by decide)
    | auth hl' => exact absurd ⟨_, h, hl'⟩ hq
    | wrong => rfl
    | invalid hn => exact absurd (val hl) hn
    | wrongNumber hn => exact absurd rfl hn
    | noMessage _ hn => exact absurd hz.symm hn
  | invalid hi =>
    generalize hz : b!"authenticateWithPassword:" = m at h2
    cases h2 with
    | close => exact absurd hz (by decide)
    | auth hl' => exact absurd (val hl') hi
    | wrong hl' => exact absurd (val hl') hi
    | invalid hn => rfl
    | wrongNumber hn => exact absurd rfl hn
    | noMessage _ hn => exact absurd hz.symm hn
  | wrongNumber hi =>
    generalize hz : b!"authenticateWithPassword:" = m at h2
    cases h2 with
    | close => exact absurd hz (by decide)
    | auth hl' => exact absurd rfl hi
    | wrong hl' => exact absurd rfl hi
    | invalid hn => exact absurd rfl hi
    | wrongNumber hn => rfl
    | noMessage _ hn => exact absurd hz.symm hn
  | noMessage n1 n2 =>
    cases h2 with
    | close => exact absurd rfl n1
    | noMessage _ hn => rfl
    | _ => exact absurd rfl n2

theorem handleLine_guess [StdSort] {k : Conn} {line rest : Str} (hs : Inv s.ctx) (ht : Inv t.ctx) (hc : t.conns = s.conns)
    (ha : t.accepting = s.accepting) (hk : k.sess.authed = false) (hp : ¬ Presents s.pwd line) (hq : ¬ Presents t.pwd line) :
    ∃ s' t', handleLine s i k line rest = .done s' ∧ handleLine t i k line rest = .done t' ∧ t'.conns = s'.conns ∧
      t'.accepting = s'.accepting := by
  by_cases hto : ToConnection line
  · obtain ⟨n, l, hst⟩ := hto
    have e1 := execute_toConnection (pwd := s.pwd) s.ctx k.sess hst
    have e2 := execute_toConnection (pwd := t.pwd) t.ctx k.sess hst
    rw [← receive_guess hst hp hq] at e2
    rcases session_receive_cases s.pwd k.sess n l with ⟨y, r, hy⟩ | ⟨e, hy⟩
    · rw [hy] at e1 e2
      rcases handleLine_cases s i k line rest _ rfl hs with ⟨_, h2, _⟩ | ⟨_, h2, _⟩ | ⟨_, c', x, r', h2, h3⟩
      · exact absurd ⟨n, l, hst⟩ h2
      · rw [h2] at e1; cases e1
      · rcases handleLine_cases t i k line rest _ rfl ht with ⟨_, g2, _⟩ | ⟨_, g2, _⟩ | ⟨_, d', x', r'', g2, g3⟩
        · exact absurd ⟨n, l, hst⟩ g2
        · rw [g2] at e2; cases e2
        · rw [h2] at e1; rw [g2] at e2
          simp only [finish, onConn, Outcome.done.injEq, Prod.mk.injEq, Option.some.injEq] at e1 e2
          obtain ⟨_, rfl, rfl⟩ := e1
          obtain ⟨_, rfl, rfl⟩ := e2
          refine ⟨_, _, h3, g3, ?_, ha⟩
          simp only [hc]
    · rw [hy] at e1 e2
      rcases handleLine_cases s i k line rest _ rfl hs with ⟨_, h2, _⟩ | ⟨_, h2, _⟩ | ⟨_, c', x, r', h2, h3⟩
      · exact absurd ⟨n, l, hst⟩ h2
      · rw [h2] at e1; cases e1
      · rcases handleLine_cases t i k line rest _ rfl ht with ⟨_, g2, _⟩ | ⟨_, g2, _⟩ | ⟨_, d', x', r'', g2, g3⟩
        · exact absurd ⟨n, l, hst⟩ g2
        · rw [g2] at e2; cases e2
        · rw [h2] at e1; rw [g2] at e2
          simp only [finish, onConn, Outcome.done.injEq, Prod.mk.injEq, Option.some.injEq] at e1 e2
          obtain ⟨_, rfl, rfl⟩ := e1
          obtain ⟨_, rfl, rfl⟩ := e2
          refine ⟨_, _, h3, g3, ?_, ha⟩
          simp only [hc]
  · rcases handleLine_cases s i k line rest _ rfl hs with ⟨_, h2, h3⟩ | ⟨h1, _⟩ | ⟨h1, _⟩
    · rcases handleLine_cases t i k line rest _ rfl ht with ⟨_, g2, g3⟩ | ⟨g1, _⟩ | ⟨g1, _⟩
      · refine ⟨_, _, h3, g3, ?_, ha⟩
        simp only [hc]
      · exact absurd g1 (by rw [hk]; simp [hto])
      · exact absurd g1 (by rw [hk]; simp [hto])
    · exact absurd h1 (by rw [hk]; simp [hto])
    · exact absurd h1 (by rw [hk]; simp [hto])

theorem step_guess [StdSort] {e : Event} (hs : Inv s.ctx) (ht : Inv t.ctx) (hc : t.conns = s.conns) (ha : t.accepting = s.accepting)
    (hsp : s.pwd ≠ []) (htp : t.pwd ≠ []) (hk : ∀ (m : ℕ) (k : Conn), s.conns[m]? = some k → k.sess.authed = false)
    (hl : ∀ m k line rest, e = .read m → s.conns[m]? = some k → splitLine k.inbuf = some (line, rest) →
      ¬ Presents s.pwd line ∧ ¬ Presents t.pwd line) : SameToClients (step s e) (step t e) := by
  cases e with
  | accept =>
    simp only [step, ha, hc]
    split
    · have e : ∀ {x : Str}, x ≠ [] → Conn.init x = ⟨⟨true, false⟩, [], .reading, []⟩ := by
        intro x hx; cases x with
        | nil => exact absurd rfl hx
        | cons => rfl
      exact ⟨by rw [e hsp, e htp], rfl⟩
    · trivial
  | acceptErr =>
    simp only [step, ha, hc]
    split
    · exact ⟨rfl, rfl⟩
    · trivial
  | read m =>
    simp only [step, hc]
    cases h : s.conns[m]? with
    | none => trivial
    | some k =>
      simp only []
      split
      · cases h' : splitLine k.inbuf with
        | none => trivial
        | some lr =>
          obtain ⟨p1, p2⟩ := hl m k lr.1 lr.2 rfl h h'
          obtain ⟨s', t', e1, e2, e3, e4⟩ := handleLine_guess (i := m) (rest := lr.2) hs ht hc ha (hk m k h) p1 p2
          simp only [e1, e2]
          exact ⟨e3, e4⟩
      · trivial
  | recv m b =>
    simp only [step, hc]
    cases s.conns[m]? with
    | none => trivial
    | some k => simp only []; split <;> simp [SameToClients, ha]
  | readErr m =>
    simp only [step, hc]
    cases s.conns[m]? with
    | none => trivial
    | some k => simp only []; split <;> simp [SameToClients, ha]
  | wrote m =>
    simp only [step, hc]
    cases s.conns[m]? with
    | none => trivial
    | some k =>
      simp only []
      cases k.phase with
      | writing r => simp only []; split <;> simp [SameToClients, ha]
      | _ => trivial
  | wroteShort m =>
    simp only [step, hc]
    cases s.conns[m]? with
    | none => trivial
    | some k => simp only []; cases k.phase <;> trivial
  | writeErr m =>
    simp only [step, hc]
    cases s.conns[m]? with
    | none => trivial
    | some k =>
      simp only []
      cases k.phase with
      | writing r => simp [SameToClients, ha]
      | _ => trivial

theorem sent_append {line : Str} {es es' : List Event} (h : Sent i es line) : Sent i (es ++ es') line := by
  obtain ⟨b, r, h1, h2⟩ := h
  have : received i (es ++ es') = received i es ++ received i es' := received_append i es es'
  exact ⟨b, r ++ received i es', by rw [this, h1]; simp, h2⟩

/-- C87: as long as no client sends a line that presents one of two (non-empty) passwords, the clients cannot find out which of them is
the server's: the same events have the same result with both, whatever the data of the servers are. -/
theorem C87_servers [StdSort] (hc : Reachable c) (hd : Reachable d) (hp : p ≠ []) (hq : q ≠ [])
    (hn : ∀ i line, Sent i es line → ¬ Presents p line ∧ ¬ Presents q line) :
    SameToClients (run (Server.init p c) es) (run (Server.init q d) es) := by
  induction es using List.reverseRecOn with
  | nil => exact ⟨rfl, rfl⟩
  | append_singleton es e ih =>
    have ih' := ih fun i line h => hn i line (sent_append h)
    rw [run_append, run_append]
    cases h1 : run (Server.init p c) es with
    | none =>
      rw [h1] at ih'
      cases h2 : run (Server.init q d) es with
      | none => trivial
      | some o => rw [h2] at ih'; exact ih'.elim
    | some o =>
      cases o with
      | ub =>
        rw [h1] at ih'
        cases h2 : run (Server.init q d) es with
        | none => rw [h2] at ih'; exact ih'.elim
        | some o =>
          cases o with
          | ub => trivial
          | done => rw [h2] at ih'; exact ih'.elim
      | done s =>
        rw [h1] at ih'
        cases h2 : run (Server.init q d) es with
        | none => rw [h2] at ih'; exact ih'.elim
        | some o =>
          cases o with
          | ub => rw [h2] at ih'; exact ih'.elim
          | done t =>
            rw [h2] at ih'
            obtain ⟨e1, e2⟩ := ih'
            obtain ⟨l1, x1⟩ := C44_serialized hc h1
            obtain ⟨l2, x2⟩ := C44_serialized hd h2
            simp only [run_single]
            refine step_guess (reachable_inv (serial_reachable hc x1.serial)) (reachable_inv (serial_reachable hd x2.serial)) e1 e2
              (by rw [x1.password]; exact hp) (by rw [x2.password]; exact hq) ?_ ?_
            · intro m k hk
              cases ha : k.sess.authed with
              | false => rfl
              | true =>
                rcases C41_server hc h1 hk ha with h | ⟨line, h, h'⟩
                · exact absurd h hp
                · exact absurd h' (hn m line (sent_append h)).1
            · rintro m k line rest rfl hk hl
              rw [x1.password, x2.password]
              refine hn m line (sent_append ?_)
              obtain ⟨e3, e4⟩ := splitLine_some hl
              refine ⟨(requestsOf m l1).map Request.line, rest, ?_, e4⟩
              rw [x1.input m k hk, e3]

/-- A reply to a request of a connection that is not authenticated, if the request presents neither of two passwords, is the same on
servers with either. -/
theorem reply_guess [StdSort] {c1 c1' c2 c2' : Ctx} {l1 l1' l2 l2' : List Request} {r r' : Request}
    (h1 : Serial p c1 (l1 ++ r :: l1') c1') (h2 : Serial q c2 (l2 ++ r' :: l2') c2') (n1 : ¬ Authenticated p l1 r.conn)
    (n2 : ¬ Authenticated q l2 r'.conn) (hl : r.line = r'.line) (hp : ¬ Presents p r.line) (hq : ¬ Presents q r.line) :
    r.reply = r'.reply := by
  have one : ∀ {x : Str} {c c' : Ctx} {l l' : List Request} {r : Request}, Serial x c (l ++ r :: l') c' → ¬ Authenticated x l r.conn →
      (∃ n a, Statement r.line b!"Connection" n a ∧ r.reply = connectionReply x n a) ∨
      (¬ ToConnection r.line ∧ r.reply = b!"AuthenticationError: not authenticated.") := by
    intro x c c' l l' r h hn
    obtain ⟨d, hd⟩ := serial_prefix (l1 := l ++ [r]) (l2 := l') (by simpa using h)
    obtain ⟨y, _, _, ⟨s, s', _, h2, h3⟩ | ⟨_, h2, h3, _⟩⟩ := serial_snoc hd
    · obtain ⟨n, a, hs⟩ := h2.resolve_left hn
      obtain ⟨t, e⟩ := toConnection_reply y s hs (pwd := x)
      rw [e] at h3
      simp only [Outcome.done.injEq, Prod.mk.injEq] at h3
      exact .inl ⟨n, a, hs, h3.2.2.symm⟩
    · exact .inr ⟨h2, h3⟩
  rcases one h1 n1 with ⟨n, a, hs, e1⟩ | ⟨hs, e1⟩ <;> rcases one h2 n2 with ⟨m, b, ht, e2⟩ | ⟨ht, e2⟩
  · have hs' := hs
    rw [hl] at hs
    obtain ⟨_, rfl, rfl⟩ := statement_same hs ht
    rw [e1, e2]
    unfold connectionReply
    rw [receive_guess hs' hp hq]
  · rw [hl] at hs; exact absurd ⟨n, a, hs⟩ ht
  · rw [← hl] at ht; exact absurd ⟨m, b, ht⟩ hs
  · rw [e1, e2]

/-- C87: and one client cannot find out more, even with others that are authenticated: if it sends the same bytes to two servers with
different (non-empty) passwords, and presents neither of them, then, whatever the servers hold, whatever other connections do there,
one of the two received texts begins with the other (they may differ in how many replies have been written so far). -/
theorem C87_one_client [StdSort] {es1 es2 : List Event} {s1 s2 : Server} {k1 k2 : Conn} (hc : Reachable c) (hd : Reachable d)
    (hp : p ≠ []) (hq : q ≠ []) (h1 : run (Server.init p c) es1 = some (.done s1)) (h2 : run (Server.init q d) es2 = some (.done s2))
    (hk1 : s1.conns[i]? = some k1) (hk2 : s2.conns[j]? = some k2) (hr : received i es1 = received j es2)
    (hn : ∀ line, Sent i es1 line → ¬ Presents p line ∧ ¬ Presents q line) : k1.out <+: k2.out ∨ k2.out <+: k1.out := by
  obtain ⟨l1, hs1, hi1, ho1, n1, e1, _⟩ := C43_answered_in_order hc h1 hk1
  obtain ⟨l2, hs2, hi2, ho2, n2, e2, _⟩ := C43_answered_in_order hd h2 hk2
  have sent : ∀ {l : List Request} {m : Nat} {rest : Str}, received i es1 = wire ((requestsOf m l).map Request.line) ++ rest →
      (∀ q ∈ l, (10 : Byte) ∉ q.line) → ∀ r ∈ l, r.conn = m → Sent i es1 r.line := by
    intro l m rest hi ho r hr hm
    obtain ⟨a, b, e⟩ : ∃ a b, requestsOf m l = a ++ r :: b := List.append_of_mem (List.mem_filter.2 ⟨hr, by simp [hm]⟩)
    refine ⟨a.map Request.line, wire (b.map Request.line) ++ rest, ?_, ho r hr⟩
    rw [hi, e]; simp [wire]
  have na1 : ¬ Authenticated p l1 i := by
    rintro (h | ⟨r, hq, hqi, hpr⟩)
    · exact hp h
    · exact (hn _ (sent hi1 ho1 r hq hqi)).1 hpr
  have na2 : ¬ Authenticated q l2 j := by
    rintro (h | ⟨r, hq, hqi, hpr⟩)
    · exact hq h
    · exact (hn _ (sent (hr.trans hi2) ho2 r hq hqi)).2 hpr
  have lines : ∀ {l : List Request} {m : Nat}, (∀ q ∈ l, (10 : Byte) ∉ q.line) → ∀ x ∈ (requestsOf m l).map Request.line, (10 : Byte) ∉ x := by
    intro l m ho x hx
    obtain ⟨q, hq, rfl⟩ := List.mem_map.1 hx
    exact ho q (List.mem_of_mem_filter hq)
  have same : ∀ r ∈ requestsOf i l1, ∀ r' ∈ requestsOf j l2, r.line = r'.line → r.reply = r'.reply := by
    intro r hr r' hr' e
    obtain ⟨m1, c1⟩ := List.mem_filter.1 hr
    obtain ⟨m2, c2⟩ := List.mem_filter.1 hr'
    simp only [beq_iff_eq] at c1 c2
    obtain ⟨hp', hq'⟩ := hn _ (sent hi1 ho1 r m1 c1)
    obtain ⟨a, b, rfl⟩ := List.append_of_mem m1
    obtain ⟨a', b', rfl⟩ := List.append_of_mem m2
    exact reply_guess hs1 hs2 (fun h => na1 (c1 ▸ (C41_kept_and_own (i := r.conn)).1 h))
      (fun h => na2 (c2 ▸ (C41_kept_and_own (i := r'.conn)).1 h)) e hp' hq'
  have hr : wire ((requestsOf i l1).map Request.line) ++ k1.inbuf <+: wire ((requestsOf j l2).map Request.line) ++ k2.inbuf := by
    rw [← hi1, ← hi2, hr]; exact List.prefix_refl _
  rw [e1, e2, List.map_take, List.map_take]
  rcases lines_prefix (lines ho1) (lines ho2) hr with h | h
  · rcases take_comparable (replies_prefix h same) n1 n2 with h | h
    · exact .inl (wire_prefix h)
    · exact .inr (wire_prefix h)
  · rcases take_comparable (replies_prefix h fun q hq q' hq' e => (same q' hq' q hq e.symm).symm) n2 n1 with h | h
    · exact .inr (wire_prefix h)
    · exact .inl (wire_prefix h)

/-- A client tries the password `ow`. -/
def guessEvents : List Event := [.accept, .recv 0 b!"Connection authenticateWithPassword: \"ow\";\n", .read 0, .wrote 0]

theorem guess_run [StdSort] : run (Server.init b!"pw" demo) guessEvents = some (.done ⟨b!"pw", demo,
    [⟨⟨true, false⟩, [], .reading, b!"AuthenticationError: wrong password.\n"⟩], true⟩) := by kernel_rfl

theorem guess_sent {line : Str} (h : Sent i guessEvents line) : line = b!"Connection authenticateWithPassword: \"ow\";" := by
  obtain ⟨before, rest, h, hn⟩ := h
  by_cases hi : i = 0
  · subst hi
    have h : b!"Connection authenticateWithPassword: \"ow\";\n" = wire before ++ (line ++ 10 :: rest) := h
    cases before with
    | nil =>
      have e := splitLine_append line rest hn
      have h : b!"Connection authenticateWithPassword: \"ow\";\n" = line ++ 10 :: rest := h
      rw [← h] at e
      have e' : splitLine b!"Connection authenticateWithPassword: \"ow\";\n" =
        some (b!"Connection authenticateWithPassword: \"ow\";", []) := by decide +kernel
      rw [e'] at e
      simp only [Option.some.injEq, Prod.mk.injEq] at e
      exact e.1.symm
    | cons b bs =>
      exfalso
      have e := congrArg (List.count 10) h
      have e' : List.count 10 b!"Connection authenticateWithPassword: \"ow\";\n" = 1 := by decide +kernel
      rw [e'] at e
      simp [wire] at e
      omega
  · exfalso
    have e : received i guessEvents = [] := by
      simp [received, guessEvents, Ne.symm hi]
    rw [e] at h
    have := congrArg List.length h
    simp at this

theorem guess_presents {x : Str} (hx : x ≠ b!"ow") {line : Str} (h : Sent i guessEvents line) : ¬ Presents x line := by
  rintro ⟨a, hs, hl⟩
  rw [guess_sent h] at hs
  have h' : Statement b!"Connection authenticateWithPassword: \"ow\";" b!"Connection" b!"authenticateWithPassword:" [b!"\"ow\""] :=
    reads (by decide +kernel)
  obtain ⟨_, _, e⟩ := statement_unique hs h'
  cases e
  have hw : StringLiteral b!"\"ow\"" b!"ow" := (quoted_literal_iff b!"ow").2 ((evenRuns_iff _).1 (by
    refine ⟨?_, by decide⟩
    intro p q e
    have : c!"\"" ∈ b!"ow" := by rw [e]; simp
    exact absurd this (by decide)))
  exact hx (by
    have := denotes_unique (.string hl) (.string hw)
    injection this)

/-- After the attempt with `ow` the client cannot tell a server with the password `pw` from one with `qw`, here with other data: the two
servers look the same. -/
example [StdSort] : SameToClients (run (Server.init b!"pw" demo) guessEvents) (run (Server.init b!"qw" fresh) guessEvents) :=
  C87_servers demo_reachable fresh_reachable (by decide) (by decide) fun _ _ h =>
    ⟨guess_presents (by decide) h, guess_presents (by decide) h⟩

/-- Whatever happens on a server with the password `qw`, a client that tries `ow` there gets the same reply. -/
example [StdSort] {es : List Event} {t : Server} {k : Conn} (h : run (Server.init b!"qw" demo) es = some (.done t))
    (hk : t.conns[j]? = some k) (hr : received 0 guessEvents = received j es) :
    b!"AuthenticationError: wrong password.\n" <+: k.out ∨ k.out <+: b!"AuthenticationError: wrong password.\n" :=
  C87_one_client demo_reachable demo_reachable (by decide) (by decide) guess_run h rfl hk hr fun _ h =>
    ⟨guess_presents (by decide) h, guess_presents (by decide) h⟩

end Knuckle.Props
