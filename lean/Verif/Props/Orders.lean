/-
C44, the converse: every serial order of requests is what some schedule does.
-/
import Verif.Props.Doubt

namespace Knuckle.Props

open Spec

variable {pwd : Str} {c c' : Ctx} {s s' t : Server} {i : Nat} {es es' : List Event} {log : List Request} {k : Conn}

theorem run_accepts [StdSort] (n : Nat) : run (Server.init pwd c) (List.replicate n .accept) =
    some (.done ⟨pwd, c, List.replicate n (Conn.init pwd), true⟩) := by
  induction n with
  | zero => rfl
  | succ n ih =>
    rw [List.replicate_succ', run_append, ih]
    simp [run_single, step, List.replicate_succ']

/-- All requests that were made are answered and all sent lines are executed; there were no errors. -/
def Quiet (es : List Event) (s : Server) : Prop :=
  (∀ (i : Nat) (k : Conn), s.conns[i]? = some k → k.inbuf = [] ∧ (k.phase = .reading ∨ k.phase = .dead)) ∧
  .acceptErr ∉ es ∧ ∀ i, .readErr i ∉ es ∧ .writeErr i ∉ es

/-- One more request of a quiet server. -/
theorem quiet_next [StdSort] {line r : Str} {c₁ : Ctx} (hc : Reachable c) (hl : Explains pwd c es s log) (hr : run (Server.init pwd c) es = some (.done s))
    (hq : Quiet es s) (hi : i < s.conns.length) (hcl : ¬ Closed log i) (hn : (10 : Byte) ∉ line) (hlen : r.length + 1 ≤ 65536)
    (hser : Serial pwd c (log ++ [⟨i, line, r⟩]) c₁)
    (hk : ∀ k, s.conns[i]? = some k → ∃ k', handleLine { s with conns := s.conns.set i { k with inbuf := line ++ [10] } } i { k with inbuf := line ++ [10] } line [] =
      .done { s with ctx := c₁, conns := s.conns.set i k' } ∧
      k'.inbuf = [] ∧ (k'.phase = .writing r ∨ k'.phase = .dead)) :
    ∃ es' s', run s es' = some (.done s') ∧ Explains pwd c (es ++ es') s' (log ++ [⟨i, line, r⟩]) ∧ Quiet (es ++ es') s' ∧
      s'.conns.length = s.conns.length ∧ s'.ctx = c₁ := by
  obtain ⟨q1, q2, q3⟩ := hq
  have hki := List.getElem?_eq_getElem hi
  generalize s.conns[i] = k at hki
  obtain ⟨b1, b2⟩ := q1 i k hki
  have hph : k.phase = .reading := b2.resolve_right fun hd => by
    rcases (hl.ended i k hki).1 hd with h | h | h
    · exact hcl h
    · exact (q3 i).1 h
    · exact (q3 i).2 h
  obtain ⟨k', hh, k1, k2⟩ := hk k hki
  have e1 : step s (.recv i (line ++ [10])) = some (.done { s with conns := s.conns.set i { k with inbuf := line ++ [10] } }) := by
    simp only [step, hki, hph, b1, List.nil_append]
    rfl
  have e2 : step { s with conns := s.conns.set i { k with inbuf := line ++ [10] } } (.read i) =
      some (.done { s with ctx := c₁, conns := s.conns.set i k' }) := by
    have : splitLine (line ++ [10]) = some (line, []) := splitLine_append line [] hn
    simp only [step, List.getElem?_set_self hi, this]
    rw [if_pos hph]
    exact congrArg some hh
  -- the last event, if there is a reply to write
  have fin : ∃ es' s', run s es' = some (.done s') ∧ received i es' = line ++ [10] ∧ (∀ j, j ≠ i → received j es' = []) ∧
      Quiet (es ++ es') s' ∧ s'.conns.length = s.conns.length ∧ s'.ctx = c₁ := by
    rcases k2 with k2 | k2
    · refine ⟨[.recv i (line ++ [10]), .read i, .wrote i],
        { s with ctx := c₁, conns := s.conns.set i { k' with phase := .reading, out := k'.out ++ (r ++ [10]) } }, ?_, by simp [received],
        fun j hj => by simp [received, Ne.symm hj], ⟨fun j m hm => ?_, by simpa using q2, fun j => by simpa using q3 j⟩, by simp, rfl⟩
      · simp only [run, e1, e2]
        simp only [step, List.getElem?_set_self hi, k2, hlen, if_true, List.set_set]
      · by_cases hj : j = i
        · subst hj
          rw [List.getElem?_set_self hi] at hm
          cases hm
          exact ⟨k1, .inl rfl⟩
        · simp only [List.getElem?_set_ne (Ne.symm hj)] at hm
          exact q1 j m hm
    · refine ⟨[.recv i (line ++ [10]), .read i], { s with ctx := c₁, conns := s.conns.set i k' }, ?_, by simp [received],
        fun j hj => by simp [received, Ne.symm hj], ⟨fun j m hm => ?_, by simpa using q2, fun j => by simpa using q3 j⟩, by simp, rfl⟩
      · simp only [run, e1, e2]
      · by_cases hj : j = i
        · subst hj
          rw [List.getElem?_set_self hi] at hm
          cases hm
          exact ⟨k1, .inr k2⟩
        · simp only [List.getElem?_set_ne (Ne.symm hj)] at hm
          exact q1 j m hm
  obtain ⟨es', s', hrun, r1, r2, hq', hlen', hctx⟩ := fin
  refine ⟨es', s', hrun, ?_, hq', hlen', hctx⟩
  obtain ⟨log', hl'⟩ := C44_respects_time hc hl hrun
  have lines : ∀ j m, s.conns[j]? = some m → wire ((requestsOf j log').map Request.line) = received j es' := by
    intro j m hm
    have hj : j < s'.conns.length := by
      rw [hlen']; by_contra hcon
      rw [List.getElem?_eq_none (by omega)] at hm; cases hm
    have hm' := List.getElem?_eq_getElem hj
    have h2 := hl'.input j _ hm'
    rw [received_append, hl.input j m hm, (q1 j m hm).1, (hq'.1 j _ hm').1] at h2
    simp only [requestsOf, List.filter_append, List.map_append, wire_append, List.append_nil] at h2
    exact (List.append_cancel_left h2).symm
  have others : ∀ q ∈ log', q.conn = i := by
    intro q hq
    by_contra hne
    have hlt := hl'.known q (List.mem_append_right _ hq)
    rw [hlen'] at hlt
    have := lines q.conn _ (List.getElem?_eq_getElem hlt)
    rw [r2 _ hne] at this
    have hmem : q ∈ requestsOf q.conn log' := List.mem_filter.2 ⟨hq, by simp⟩
    obtain ⟨a, b, e⟩ := List.append_of_mem hmem
    rw [e] at this
    simp [wire] at this
  have own : requestsOf i log' = log' := List.filter_eq_self.2 fun q hq => by simp [others q hq]
  have hw := lines i k hki
  rw [own, r1] at hw
  have one : ∃ r', log' = [⟨i, line, r'⟩] := by
    have hnl := fun q hq => hl'.oneLine q (List.mem_append_right log hq)
    match log', others, hw, hnl with
    | [], _, hw, _ => simp [wire] at hw
    | [q], others, hw, _ =>
      refine ⟨q.reply, ?_⟩
      have h1 := others q (by simp)
      simp [wire] at hw
      obtain ⟨a, b, d⟩ := q
      simp only at h1 hw
      rw [h1, hw]
    | q :: q' :: l, _, hw, hnl =>
      exfalso
      have := congrArg (List.count 10) hw
      rw [List.count_append, List.count_eq_zero.2 hn] at this
      simp [wire] at this
      omega
  obtain ⟨r', rfl⟩ := one
  have hm : (log ++ [(⟨i, line, r⟩ : Request)]).map (fun q => (q.conn, q.line)) = (log ++ [(⟨i, line, r'⟩ : Request)]).map fun q => (q.conn, q.line) := by
    rw [List.map_append, List.map_append]; rfl
  obtain ⟨e, _⟩ := serial_det hser hl'.serial hm
  rw [e]; exact hl'

theorem orders [StdSort] (hc : Reachable c) (h : Serial pwd c log c') (n : Nat) (hlt : ∀ q ∈ log, q.conn < n) (hn : ∀ q ∈ log, (10 : Byte) ∉ q.line)
    (hr : ∀ q ∈ log, q.reply.length + 1 ≤ 65536) :
    ∃ es s, run (Server.init pwd c) es = some (.done s) ∧ Explains pwd c es s log ∧ Quiet es s ∧ s.conns.length = n ∧ s.ctx = c' := by
  induction h with
  | nil =>
    have h0 := run_accepts (pwd := pwd) (c := c) n
    obtain ⟨log, hl⟩ := C44_serialized hc h0
    have hacc : ∀ e, e ∈ List.replicate n Event.accept → e = .accept := fun e he => (List.mem_replicate.1 he).2
    have hq : Quiet (List.replicate n .accept) ⟨pwd, c, List.replicate n (Conn.init pwd), true⟩ := by
      have hk : ∀ (i : Nat) (k : Conn), (List.replicate n (Conn.init pwd))[i]? = some k → k.inbuf = [] ∧ (k.phase = .reading ∨ k.phase = .dead) := by
        intro i k hk
        rw [(List.mem_replicate.1 (List.mem_of_getElem? hk)).2]
        exact ⟨rfl, .inl rfl⟩
      exact ⟨hk, fun h => (by cases hacc _ h), fun i => ⟨fun h => (by cases hacc _ h), fun h => (by cases hacc _ h)⟩⟩
    refine ⟨_, _, h0, ?_, hq, by simp, rfl⟩
    have : log = [] := by
      match log, hl with
      | [], _ => rfl
      | q :: l, hl =>
        exfalso
        have hlt := hl.known q (by simp)
        have h1 := hl.input q.conn _ (List.getElem?_eq_getElem hlt)
        have h2 : ∀ j m, received j (List.replicate m .accept) = [] := by
          intro j m
          induction m with
          | zero => rfl
          | succ m ih => simpa [List.replicate_succ, received] using ih
        rw [h2] at h1
        have hmem : q ∈ requestsOf q.conn (q :: l) := List.mem_filter.2 ⟨by simp, by simp⟩
        obtain ⟨a, b, e⟩ := List.append_of_mem hmem
        rw [e] at h1
        simp [wire] at h1
    rw [← this]; exact hl
  | @executed log c' c'' i line reply s s' h1 h2 h3 h4 h5 ih =>
    obtain ⟨es, sv, a1, a2, a3, a4, a5⟩ := ih (fun q hq => hlt q (List.mem_append_left _ hq)) (fun q hq => hn q (List.mem_append_left _ hq))
      (fun q hq => hr q (List.mem_append_left _ hq))
    have hi : i < sv.conns.length := by rw [a4]; exact hlt ⟨i, line, reply⟩ (by simp)
    obtain ⟨es', s1, b1, b2, b3, b4, b5⟩ := quiet_next (i := i) hc a2 a1 a3 hi h2 (hn ⟨i, line, reply⟩ (by simp)) (hr ⟨i, line, reply⟩ (by simp))
      (.executed h1 h2 h3 h4 h5) fun k hk => by
        have es : k.sess = s := sessionAfter_same Iff.rfl Iff.rfl h3 (a2.session i k hk)
        have hinv := reachable_inv (serial_reachable hc a2.serial)
        have ha : k.sess.authed = true ∨ ToConnection line := h4.imp (fun h => (a2.session i k hk).1.2 h) id
        rcases handleLine_cases { sv with conns := sv.conns.set i { k with inbuf := line ++ [10] } } i { k with inbuf := line ++ [10] } line [] _ rfl hinv with
          ⟨g1, g2, g3⟩ | ⟨g1, g2, g3⟩ | ⟨g1, d', z', r', g2, g3⟩
        · exact (ha.elim g1 g2).elim
        · simp only [es, a2.password, a5] at g2
          rw [h5] at g2; cases g2
        · simp only [es, a2.password, a5] at g2
          rw [h5] at g2; cases g2
          refine ⟨{ k with sess := s', inbuf := [], phase := if s'.connected then .writing reply else .dead },
            g3.trans (by simp only [List.set_set]), rfl, ?_⟩
          simp only
          split
          · exact .inl rfl
          · exact .inr rfl
    exact ⟨es ++ es', s1, by rw [run_append, a1]; exact b1, b2, b3, by rw [b4, a4], b5⟩
  | @ignored log c' i line h1 h2 h3 h4 ih =>
    obtain ⟨es, sv, a1, a2, a3, a4, a5⟩ := ih (fun q hq => hlt q (List.mem_append_left _ hq)) (fun q hq => hn q (List.mem_append_left _ hq))
      (fun q hq => hr q (List.mem_append_left _ hq))
    have hi : i < sv.conns.length := by rw [a4]; exact hlt ⟨i, line, _⟩ (List.mem_append_right _ (List.mem_singleton.2 rfl))
    obtain ⟨es', s1, b1, b2, b3, b4, b5⟩ := quiet_next (i := i) hc a2 a1 a3 hi h2 (hn ⟨i, line, _⟩ (List.mem_append_right _ (List.mem_singleton.2 rfl))) (by decide)
      (.ignored h1 h2 h3 h4) fun k hk => by
        have hinv := reachable_inv (serial_reachable hc a2.serial)
        have hna : ¬ k.sess.authed = true := fun h => h3 ((a2.session i k hk).1.1 h)
        rcases handleLine_cases { sv with conns := sv.conns.set i { k with inbuf := line ++ [10] } } i { k with inbuf := line ++ [10] } line [] _ rfl hinv with
          ⟨g1, g2, g3⟩ | ⟨g1, g2, g3⟩ | ⟨g1, d', z', r', g2, g3⟩
        · exact ⟨{ k with inbuf := [], phase := .writing b!"AuthenticationError: not authenticated." },
            g3.trans (by subst a5; simp only [List.set_set]), rfl, .inl rfl⟩
        · exact (g1.elim hna h4).elim
        · exact (g1.elim hna h4).elim
    exact ⟨es ++ es', s1, by rw [run_append, a1]; exact b1, b2, b3, by rw [b4, a4], b5⟩

/-- C44, the converse: every serial order of requests is possible: if executing requests (one line each, with replies short enough to be
written) in some order gives some replies, then there is a schedule of the server in which it executes exactly these requests in this order;
every line sent has been executed then, and every reply written unless the request closed the connection. -/
theorem C44_every_order [StdSort] (hc : Reachable c) (h : Serial pwd c log c') (hn : ∀ q ∈ log, (10 : Byte) ∉ q.line)
    (hr : ∀ q ∈ log, q.reply.length + 1 ≤ 65536) :
    ∃ es s, run (Server.init pwd c) es = some (.done s) ∧ Explains pwd c es s log ∧ s.ctx = c' ∧
      ∀ i k, s.conns[i]? = some k → k.inbuf = [] ∧
        ((k.phase = .reading ∧ k.out = wire ((requestsOf i log).map Request.reply)) ∨ (k.phase = .dead ∧ Closed log i)) := by
  have bound : ∃ n, ∀ q ∈ log, q.conn < n := by
    clear h hn hr
    induction log with
    | nil => exact ⟨0, by simp⟩
    | cons q l ih =>
      obtain ⟨n, hn⟩ := ih
      refine ⟨max n (q.conn + 1), fun x hx => ?_⟩
      rcases List.mem_cons.1 hx with rfl | hx
      · omega
      · have := hn x hx; omega
  obtain ⟨n, hlt⟩ := bound
  obtain ⟨es, s, h1, h2, h3, _, h5⟩ := orders hc h n hlt hn hr
  refine ⟨es, s, h1, h2, h5, fun i k hk => ?_⟩
  obtain ⟨q1, q2, q3⟩ := h3
  obtain ⟨hb, hq⟩ := q1 i k hk
  refine ⟨hb, ?_⟩
  rcases hq with hp | hp
  · have := h2.output i k hk
    unfold Written at this
    rw [hp] at this
    exact .inl ⟨hp, this⟩
  · refine .inr ⟨hp, ?_⟩
    rcases (h2.ended i k hk).1 hp with h | h | h
    · exact h
    · exact ((q3 i).1 h).elim
    · exact ((q3 i).2 h).elim

/-- The requests of the two clients of `twoClients` in the other order. -/
example [StdSort] : Serial [] fresh [⟨1, b!"Integer create: b::i withValue: 2;", b!"null"⟩, ⟨0, b!"Integer create: a::i withValue: 1;", b!"null"⟩]
    { fresh with vars := [(b!"a::i", .integer 1), (b!"b::i", .integer 2)] } := by
  have nc : ∀ (l : List Request) (j : Nat), (∀ q ∈ l, ¬ Closes q.line) → ¬ Closed l j := by
    rintro l j h ⟨q, hq, _, hc⟩; exact h q hq hc
  have c1 : ¬ Closes b!"Integer create: b::i withValue: 2;" := fun h =>
    absurd (statement_unique h (reads (by decide +kernel) : Statement b!"Integer create: b::i withValue: 2;" b!"Integer" b!"create:withValue:" [b!"b::i", b!"2"])).1 (by decide)
  have s1 : Serial [] fresh ([] ++ [⟨1, b!"Integer create: b::i withValue: 2;", b!"null"⟩]) { fresh with vars := [(b!"b::i", .integer 2)] } :=
    .executed .nil (nc _ _ (by simp)) (s := ⟨true, true⟩) ⟨⟨fun _ => .inl rfl, fun _ => rfl⟩, ⟨fun _ => nc _ _ (by simp), fun _ => rfl⟩⟩ (.inl (.inl rfl))
      (s' := ⟨true, true⟩) (by kernel_rfl)
  have n2 : ∀ j, ¬ Closed ([] ++ [⟨1, b!"Integer create: b::i withValue: 2;", b!"null"⟩]) j := fun j => nc _ _ (by
    intro q hq; simp only [List.nil_append, List.mem_singleton] at hq; rw [hq]; exact c1)
  exact .executed s1 (n2 0) (s := ⟨true, true⟩) ⟨⟨fun _ => .inl rfl, fun _ => rfl⟩, ⟨fun _ => n2 0, fun _ => rfl⟩⟩ (.inl (.inl rfl))
      (s' := ⟨true, true⟩) (by kernel_rfl)

end Knuckle.Props
