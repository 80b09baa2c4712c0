/-
C47 for whole histories: a reply that is too long is the last thing that ever happens on its connection.
-/
import Verif.Props.Client

namespace Knuckle.Props

open Spec

variable {pwd : Str} {c : Ctx} {es : List Event} {s s' : Server} {i : Nat} {log : List Request}

/-- The replies fit into one write. -/
def ShortReplies (rs : List Str) : Prop := ∀ r ∈ rs, r.length + 1 ≤ 65536

/-- All replies that have been written were short. -/
def ShortSoFar (es : List Event) (log : List Request) (i : Nat) (k : Conn) : Prop :=
  match k.phase with
  | .reading => ShortReplies ((requestsOf i log).map Request.reply)
  | .writing _ => ShortReplies ((requestsOf i log).map Request.reply).dropLast
  | .dead => ShortReplies ((requestsOf i log).map Request.reply).dropLast ∧
      (¬ (Closed log i ∨ .writeErr i ∈ es) → ShortReplies ((requestsOf i log).map Request.reply))

theorem short_dropLast {rs : List Str} (h : ShortReplies rs) : ShortReplies rs.dropLast := fun r hr => h r (List.dropLast_subset _ hr)

theorem wire_nil {ls : List Str} (h : (wire ls).length = 0) : ls = [] := by
  cases ls with
  | nil => rfl
  | cons l ls => simp [wire] at h

/-- After a line has been executed, its connection is not waiting for the next one. -/
theorem handleLine_phase [StdSort] {k k' : Conn} {line rest : Str} (h : handleLine s i k line rest = .done s')
    (hk' : s'.conns[i]? = some k') : k'.phase ≠ .reading := by
  have key : ∀ {x : Conn} {y : Server}, y.conns = s.conns.set i x → y = s' → x.phase ≠ .reading → k'.phase ≠ .reading := by
    intro x y h1 h2 h3
    rw [← h2, h1, List.getElem?_set] at hk'
    simp only [if_true] at hk'
    split at hk'
    · cases hk'; exact h3
    · cases hk'
  simp only [handleLine] at h
  split at h
  swap
  · cases h
  split at h
  · split at h
    · exact key rfl (Outcome.done.inj h) (by dsimp only; split <;> simp)
    · cases h
  · exact key rfl (Outcome.done.inj h) (by simp)

/-- If no line has been taken out of the buffer, there is no new request. -/
theorem requests_same [StdSort] {e : Event} {log' : List Request} {k k' : Conn} (h : Explains pwd c es s log)
    (h' : Explains pwd c (es ++ [e]) s' (log ++ log')) (hk : s.conns[i]? = some k) (hk' : s'.conns[i]? = some k')
    (hb : k'.inbuf = k.inbuf ++ received i [e]) : requestsOf i (log ++ log') = requestsOf i log := by
  have e1 := h.input i k hk
  have e2 := h'.input i k' hk'
  rw [received_append, e1, requestsOf_append, List.map_append, wire_append, hb] at e2
  have := congrArg List.length e2
  simp only [List.length_append] at this
  rw [requestsOf_append, List.map_eq_nil_iff.1 (wire_nil (ls := (requestsOf i log').map Request.line) (by omega)), List.append_nil]

theorem closed_requests : Closed log i ↔ ∃ q ∈ requestsOf i log, Closes q.line := by
  unfold Closed requestsOf
  constructor
  · rintro ⟨q, h1, h2, h3⟩; exact ⟨q, List.mem_filter.2 ⟨h1, by simpa using h2⟩, h3⟩
  · rintro ⟨q, h1, h3⟩
    obtain ⟨h1, h2⟩ := List.mem_filter.1 h1
    exact ⟨q, h1, by simpa using h2, h3⟩

theorem notAbout_received {e : Event} (h : NotAbout i e) : received i [e] = [] := by
  cases e <;> simp [received]
  rename_i j b
  intro e; exact absurd e h

/-- A connection the event is not about. -/
theorem short_other [StdSort] {e : Event} {log' : List Request} {k' : Conn} (h : Explains pwd c es s log)
    (h' : Explains pwd c (es ++ [e]) s' (log ++ log')) (hJ : ∀ k, s.conns[i]? = some k → ShortSoFar es log i k)
    (hst : step s e = some (.done s')) (hn : NotAbout i e) (hk' : s'.conns[i]? = some k') : ShortSoFar (es ++ [e]) (log ++ log') i k' := by
  have hrec := notAbout_received hn
  cases hk : s.conns[i]? with
  | some k =>
    have e1 := C48_others_cannot_interfere (es := [e]) hk (by simpa using hn) (s' := s') (by simp only [run, hst])
    rw [hk'] at e1
    cases e1
    have er := requests_same h h' hk hk' (by rw [hrec, List.append_nil])
    have hw : Event.writeErr i ∈ es ++ [e] ↔ Event.writeErr i ∈ es := by
      simp only [List.mem_append, List.mem_singleton, or_iff_left_iff_imp]
      rintro rfl; exact absurd rfl hn
    have hcl : Closed (log ++ log') i ↔ Closed log i := by rw [closed_requests, closed_requests, er]
    have := hJ _ hk
    unfold ShortSoFar at this ⊢
    rw [er, hw, hcl]
    exact this
  | none =>
    have e2 := h'.input i k' hk'
    have hle : s.conns.length ≤ i := by simpa using hk
    rw [received_append, hrec, (h.unknown i hle).1] at e2
    have := congrArg List.length e2
    simp only [List.length_append, List.length_nil] at this
    have er : requestsOf i (log ++ log') = [] := List.map_eq_nil_iff.1 (wire_nil (ls := (requestsOf i (log ++ log')).map Request.line) (by omega))
    have h0 : ShortReplies [] := fun r hr => by cases hr
    unfold ShortSoFar
    rw [er]
    split
    · exact h0
    · exact h0
    · exact ⟨h0, fun _ => h0⟩

theorem short_step [StdSort] {e : Event} (hc : Reachable c) (h : Explains pwd c es s log)
    (hJ : ∀ (i : Nat) (k : Conn), s.conns[i]? = some k → ShortSoFar es log i k) (hst : step s e = some (.done s')) :
    ∃ log', Explains pwd c (es ++ [e]) s' (log ++ log') ∧
      ∀ (i : Nat) (k : Conn), s'.conns[i]? = some k → ShortSoFar (es ++ [e]) (log ++ log') i k := by
  have hst0 := hst
  have at_ : ∀ {j : Nat} {k k' : Conn}, s.conns[j]? = some k → (s.conns.set j k')[j]? = some k' := fun {j k k'} hj => by
    have : j < s.conns.length := by
      by_contra hn
      rw [List.getElem?_eq_none (by omega)] at hj; cases hj
    simp [this]
  cases e with
  | accept =>
    obtain ⟨log', h'⟩ := explains_step hc h hst
    exact ⟨log', h', fun i k hk => short_other h h' (hJ i) hst (by simp [NotAbout]) hk⟩
  | acceptErr =>
    obtain ⟨log', h'⟩ := explains_step hc h hst
    exact ⟨log', h', fun i k hk => short_other h h' (hJ i) hst (by simp [NotAbout]) hk⟩
  | recv j b =>
    obtain ⟨log', h'⟩ := explains_step hc h hst
    refine ⟨log', h', fun i k' hk' => ?_⟩
    by_cases hij : j = i
    swap
    · exact short_other h h' (hJ i) hst hij hk'
    subst hij
    simp only [step] at hst
    split at hst
    swap
    · cases hst
    rename_i k hj
    split at hst
    · cases hst
    cases hst
    rw [at_ hj] at hk'; cases hk'
    have er := requests_same h h' hj (at_ hj) (by simp [received])
    have hcl : Closed (log ++ log') j ↔ Closed log j := by rw [closed_requests, closed_requests, er]
    have := hJ j k hj
    unfold ShortSoFar at this ⊢
    rw [er, hcl]
    simpa using this
  | read j =>
    simp only [step] at hst
    split at hst
    swap
    · cases hst
    rename_i k hj
    split at hst
    swap
    · cases hst
    rename_i hp
    split at hst
    swap
    · cases hst
    rename_i line rest hl
    obtain ⟨r, h', _⟩ := explains_read hc h hj hp hl (Option.some.inj hst)
    refine ⟨_, h', fun i k' hk' => ?_⟩
    by_cases hij : j = i
    swap
    · exact short_other h h' (hJ i) hst0 hij hk'
    subst hij
    have h1 := hJ j k hj
    simp only [ShortSoFar, hp] at h1
    have er : requestsOf j (log ++ [⟨j, line, r⟩]) = requestsOf j log ++ [⟨j, line, r⟩] := by rw [requestsOf_append]; simp [requestsOf]
    have hd : ShortReplies ((requestsOf j (log ++ [⟨j, line, r⟩])).map Request.reply).dropLast := by
      rw [er, List.map_append, List.map_singleton, List.dropLast_concat]; exact h1
    have hout := h'.output j k' hk'
    unfold ShortSoFar
    split
    · rename_i hp'
      exfalso
      exact handleLine_phase (Option.some.inj hst) hk' hp'
    · exact hd
    · rename_i hp'
      refine ⟨hd, fun hn => ?_⟩
      have h3 := (h'.ended j k' hk').1 hp'
      have hlive : ¬ (Closed log j ∨ .readErr j ∈ es ∨ .writeErr j ∈ es) := by rw [← h.ended j k hj, hp]; simp
      simp only [not_or] at hlive
      rcases h3 with h3 | h3 | h3
      · exact absurd (.inl h3) hn
      · simp [hlive] at h3
      · exact absurd (.inr h3) hn
  | readErr j =>
    obtain ⟨log', h'⟩ := explains_step hc h hst
    refine ⟨log', h', fun i k' hk' => ?_⟩
    by_cases hij : j = i
    swap
    · exact short_other h h' (hJ i) hst hij hk'
    subst hij
    simp only [step] at hst
    split at hst
    swap
    · cases hst
    rename_i k hj
    split at hst
    swap
    · cases hst
    rename_i hp
    cases hst
    rw [at_ hj] at hk'; cases hk'
    have er := requests_same h h' hj (at_ hj) (by simp [received])
    have h1 := hJ j k hj
    simp only [ShortSoFar, hp] at h1
    simp only [ShortSoFar]
    rw [er]
    exact ⟨short_dropLast h1, fun _ => h1⟩
  | wrote j =>
    obtain ⟨log', h'⟩ := explains_step hc h hst
    refine ⟨log', h', fun i k' hk' => ?_⟩
    by_cases hij : j = i
    swap
    · exact short_other h h' (hJ i) hst hij hk'
    subst hij
    simp only [step] at hst
    split at hst
    swap
    · cases hst
    rename_i k hj
    split at hst
    swap
    · cases hst
    rename_i reply hp
    split at hst
    swap
    · cases hst
    rename_i hs
    cases hst
    rw [at_ hj] at hk'; cases hk'
    have er := requests_same h h' hj (at_ hj) (by simp [received])
    have h1 := hJ j k hj
    have hout := h.output j k hj
    simp only [ShortSoFar, hp] at h1
    simp only [Written, hp] at hout
    obtain ⟨rs, h2, _⟩ := hout
    simp only [ShortSoFar]
    rw [er]
    rw [h2, List.dropLast_concat] at h1
    rw [h2]
    intro x hx
    rcases List.mem_append.1 hx with hx | hx
    · exact h1 x hx
    · rw [List.mem_singleton.1 hx]; exact hs
  | wroteShort j =>
    simp only [step] at hst
    split at hst
    · split at hst <;> cases hst
    · cases hst
  | writeErr j =>
    obtain ⟨log', h'⟩ := explains_step hc h hst
    refine ⟨log', h', fun i k' hk' => ?_⟩
    by_cases hij : j = i
    swap
    · exact short_other h h' (hJ i) hst hij hk'
    subst hij
    simp only [step] at hst
    split at hst
    swap
    · cases hst
    rename_i k hj
    split at hst
    swap
    · cases hst
    rename_i reply hp
    cases hst
    rw [at_ hj] at hk'; cases hk'
    have er := requests_same h h' hj (at_ hj) (by simp [received])
    have h1 := hJ j k hj
    simp only [ShortSoFar, hp] at h1
    simp only [ShortSoFar]
    rw [er]
    exact ⟨h1, fun hn => absurd (.inr (by simp)) hn⟩

theorem short_run [StdSort] {es' : List Event} (hc : Reachable c) (h : Explains pwd c es s log)
    (hJ : ∀ (i : Nat) (k : Conn), s.conns[i]? = some k → ShortSoFar es log i k) (hr : run s es' = some (.done s')) :
    ∃ log', Explains pwd c (es ++ es') s' (log ++ log') ∧
      ∀ (i : Nat) (k : Conn), s'.conns[i]? = some k → ShortSoFar (es ++ es') (log ++ log') i k := by
  induction es' generalizing es s log with
  | nil => cases hr; exact ⟨[], by simpa using h, by simpa using hJ⟩
  | cons e es' ih =>
    simp only [run] at hr
    cases hst : step s e with
    | none => rw [hst] at hr; cases hr
    | some o => cases o with
      | ub => rw [hst] at hr; cases hr
      | done s1 =>
        rw [hst] at hr
        obtain ⟨l1, h1, j1⟩ := short_step hc h hJ hst
        obtain ⟨l2, h2, j2⟩ := ih h1 j1 hr
        exact ⟨l1 ++ l2, by simpa using h2, by simpa using j2⟩

/-- C47: in every history, a request whose reply (with its newline) is longer than 65536 bytes is the last request of its connection that is
ever executed; all replies before it have been delivered, and of this one and any later one nothing is. -/
theorem C47_history [StdSort] (hc : Reachable c) (h : run (Server.init pwd c) es = some (.done s)) :
    ∃ log, Explains pwd c es s log ∧ ∀ (i : Nat) (k : Conn), s.conns[i]? = some k → ∀ l q l', requestsOf i log = l ++ q :: l' →
      65536 < q.reply.length + 1 → l' = [] ∧ k.out = wire (l.map Request.reply) ∧ k.phase ≠ .reading := by
  obtain ⟨log, h1, h2⟩ := short_run hc (explains_init pwd c) (by simp [Server.init]) h
  simp only [List.nil_append] at h1 h2
  refine ⟨log, h1, fun i k hk l q l' e hq => ?_⟩
  have hJ := h2 i k hk
  have hout := h1.output i k hk
  have no : ¬ ShortReplies ((requestsOf i log).map Request.reply) := fun hs => by
    have := hs q.reply (List.mem_map.2 ⟨q, by rw [e]; simp, rfl⟩); omega
  have last : ShortReplies ((requestsOf i log).map Request.reply).dropLast → l' = [] := fun hs => by
    rcases List.eq_nil_or_concat l' with h | ⟨m, x, rfl⟩
    · exact h
    · exfalso
      have := hs q.reply (by
        rw [e, List.map_append, List.map_cons, List.concat_eq_append, List.map_append, List.map_singleton, ← List.cons_append, ← List.append_assoc,
          List.dropLast_concat]
        simp)
      omega
  unfold ShortSoFar at hJ
  unfold Written at hout
  split at hJ
  · exact absurd hJ no
  · rename_i r hp
    have hl := last hJ
    subst hl
    rw [hp] at hout
    obtain ⟨rs, h3, h4⟩ := hout
    rw [e, List.map_append, List.map_singleton] at h3
    obtain ⟨h5, _⟩ := List.append_inj' h3 rfl
    exact ⟨rfl, by rw [h4, h5], by rw [hp]; simp⟩
  · rename_i hp
    have hl := last hJ.1
    subst hl
    rw [hp] at hout
    by_cases hx : Closed log i ∨ .writeErr i ∈ es
    · obtain ⟨rs, r, h3, h4⟩ := hout.1 hx
      rw [e, List.map_append, List.map_singleton] at h3
      obtain ⟨h5, _⟩ := List.append_inj' h3 rfl
      exact ⟨rfl, by rw [h4, h5], by rw [hp]; simp⟩
    · exact absurd (hJ.2 hx) no

/-- A variable with a string of any even length. -/
theorem hex_string_reachable [StdSort] (v : Str) : Reachable { fresh with vars := [(b!"x", .string (hexText v))] } := by
  have hx : Variable b!"x" := (isVariable_iff _).1 (by decide)
  have hs := rest_statement (w := []) (a := b!"String") (by intro c hc; cases hc) (.inr (.inr (.inl (.inl (by unfold ObjectType; decide)))))
    (rest_one (tok := b!"create:") ((isKeywordMessageToken_iff _).1 (by decide +kernel)) (.inr (.inr hx))
      (rest_one (tok := b!"withValue:") ((isKeywordMessageToken_iff _).1 (by decide +kernel)) (string_argument (hex_literal v).1) rest_end)) (by simp)
  have := execute_creates (pwd := []) (c := fresh) (s := none) (reachable_inv fresh_reachable) hs
    (Creates.value (o := .string (hexText v)) (by unfold ObjectType; decide) (by decide) hx (.string (hex_literal v).2))
  exact .step fresh_reachable this

/-- A long reply, asked for by one request. -/
theorem hex_reply [StdSort] (v : Str) : ∃ c es s, Reachable c ∧ run (Server.init [] c) es = some (.done s) ∧
    ∀ log, Explains [] c es s log → ∃ q, requestsOf 0 log = [q] ∧ q.reply.length = 2 * v.length + 2 := by
  have hc := hex_string_reachable v
  obtain ⟨s, h1, k, h2, h3⟩ := long_reply_reachable _ hc
  refine ⟨_, _, s, hc, h1, fun log hl => ?_⟩
  have hout := hl.output 0 k h2
  obtain ⟨k', h4, h5⟩ : ∃ k', s.conns[0]? = some k' ∧ k'.out = [] := by
    cases h1; exact ⟨_, rfl, rfl⟩
  rw [h2] at h4; cases h4
  simp only [Written, h3] at hout
  obtain ⟨rs, h6, h7⟩ := hout
  rw [h5] at h7
  have : rs = [] := wire_nil (by rw [← h7]; rfl)
  rw [this, List.nil_append] at h6
  obtain ⟨q, h8⟩ : ∃ q, requestsOf 0 log = [q] := List.length_eq_one_iff.1 (by simpa using congrArg List.length h6)
  rw [h8] at h6
  refine ⟨q, h8, ?_⟩
  rw [(List.cons.inj h6).1, literal_quoted _ _ (hex_literal v).2]
  simp [inQuotes, hex_length]

/-- The case the theorem is about happens: one request, whose reply has 65538 bytes. -/
example [StdSort] : ∃ c es s, Reachable c ∧ run (Server.init [] c) es = some (.done s) ∧
    ∀ log, Explains [] c es s log → ∃ q, requestsOf 0 log = [q] ∧ 65536 < q.reply.length + 1 := by
  obtain ⟨c, es, s, h1, h2, h3⟩ := hex_reply (List.replicate 32768 0)
  refine ⟨c, es, s, h1, h2, fun log hl => ?_⟩
  obtain ⟨q, h4, h5⟩ := h3 log hl
  refine ⟨q, h4, ?_⟩
  rw [List.length_replicate] at h5
  omega

end Knuckle.Props
