/-
C112: a vector as a queue of jobs, for any number of producers and workers.

`Serial pwd c log c'` is what C44 provides for every schedule of the server.
-/
import Verif.Props.Topic
import Verif.Props.Pool
import Verif.Spec.Queue

namespace Knuckle.Props

open Spec

variable {pwd : Str} {c c' : Ctx} {n t a : Str} {l l' l1 l2 log : List Request} {q : Request} {l₀ posted : List Obj} {taken : List (Nat × Str)}

theorem vec_popFront {cfg : Cfg} {k : List Obj} {i : Inst} {r : Str} {args : List Str} (h : Behaves cfg (.vector t k) b!"popFront" args (.gives i r)) :
    args = [] ∧ ((k = [] ∧ i = .vector t [] ∧ r = b!"null") ∨ ∃ o k', k = o :: k' ∧ i = .vector t k' ∧ r = o.repr cfg.prec) := by
  generalize hx : Result.gives i r = x at h
  generalize hn : b!"popFront" = nm at h
  cases h with
  | @vector _ _ _ _ m hs =>
    obtain ⟨w, e, rfl⟩ := map_gives hx.symm
    cases hs <;> first | exact absurd hn (by decide) | skip
    refine ⟨rfl, ?_⟩
    cases k with
    | nil => simp only [vecMeaning, Result.gives.injEq] at e; exact .inl ⟨rfl, by rw [← e.1], e.2.symm⟩
    | cons o k => simp only [vecMeaning, Result.gives.injEq] at e; exact .inr ⟨o, k, rfl, by rw [← e.1], e.2.symm⟩
  | _ => exact absurd hn (by decide)

/-- C112: what was in the vector followed by what was posted is, in this order, what was taken followed by what is in the vector: nothing is lost, nothing is
taken twice, nothing overtakes. -/
theorem C112_fifo [StdSort] (hc : Reachable c) (hn : Holds c n (.vector t l₀)) (h : Serial pwd c log c') (hq : Queued n t log posted taken) :
    ∃ done left, Holds c' n (.vector t left) ∧ l₀ ++ posted = done ++ left ∧ List.Forall₂ Printed (taken.map (·.2)) done := by
  induction hq generalizing c' with
  | nil =>
    generalize hl : ([] : List Request) = l at h
    cases h with
    | nil => exact ⟨[], l₀, hn, by simp, .nil⟩
    | executed => simp at hl
    | ignored => simp at hl
  | @post q log a o posted taken hs hd ha _ ih =>
    obtain ⟨x, hx, _, ⟨s, s', _, _, he⟩ | ⟨_, _, h3, _⟩⟩ := serial_snoc h
    swap
    · exact absurd (by rw [h3]; decide) ha
    obtain ⟨dn, left, hk, e1, e2⟩ := ih hx
    obtain ⟨i, hb, ho, _⟩ := accepted_behaves (serial_reachable hc hx) hk hs he ha
    obtain ⟨a', o', e, hd', rfl, _⟩ := vec_push hb
    cases e
    rw [denotes_unique hd' hd] at ho
    exact ⟨dn, left ++ [o], onlyChanged_holds ho, by rw [← List.append_assoc, e1, List.append_assoc], e2⟩
  | @take q log posted taken hs ha hr _ ih =>
    obtain ⟨x, hx, _, ⟨s, s', _, _, he⟩ | ⟨_, _, h3, _⟩⟩ := serial_snoc h
    swap
    · exact absurd (by rw [h3]; decide) ha
    obtain ⟨dn, left, hk, e1, e2⟩ := ih hx
    obtain ⟨i, hb, ho, _⟩ := accepted_behaves (serial_reachable hc hx) hk hs he ha
    obtain ⟨_, ⟨_, _, e⟩ | ⟨o, k', rfl, rfl, e⟩⟩ := vec_popFront hb
    · exact absurd e hr
    · refine ⟨dn ++ [o], k', onlyChanged_holds ho, by rw [e1, List.append_assoc]; rfl, ?_⟩
      rw [List.map_append]
      exact List.rel_append e2 (.cons ⟨_, e⟩ .nil)
  | @empty q log posted taken hs hr _ ih =>
    have ha : q.accepted := by unfold Request.accepted; rw [hr]; decide
    obtain ⟨x, hx, _, ⟨s, s', _, _, he⟩ | ⟨_, _, h3, _⟩⟩ := serial_snoc h
    swap
    · exact absurd (by rw [h3]; decide) ha
    obtain ⟨dn, left, hk, e1, e2⟩ := ih hx
    obtain ⟨i, hb, ho, _⟩ := accepted_behaves (serial_reachable hc hx) hk hs he ha
    obtain ⟨_, ⟨rfl, rfl, _⟩ | ⟨o, k', _, _, e⟩⟩ := vec_popFront hb
    · exact ⟨dn, [], onlyChanged_holds ho, e1, e2⟩
    · exact absurd (e.symm.trans hr) (repr_ne_null _ _)
  | @other q log posted taken ho _ ih =>
    obtain ⟨x, hx, _, ⟨s, s', _, _, he⟩ | ⟨_, _, h3, rfl⟩⟩ := serial_snoc h
    · obtain ⟨dn, left, hk, e⟩ := ih hx
      obtain ⟨_, j, hj, hch⟩ := updates_chain (serial_reachable hc hx) hk
        (.other he (ho.elim (fun h => .inl (not_not.1 h)) .inr) .nil : Updates n x [] c')
      cases hch
      exact ⟨dn, left, hj, e⟩
    · exact ih hx

/-- C112: if there are no deletions, and the accepted messages to the vector are only questions, `pushBack:` and `popFront`, then the history is of this form. -/
theorem C112_every_history [StdSort] (hc : Reachable c) (hn : Holds c n (.vector t l₀)) (h : Serial pwd c log c') (hu : OnlyQueues n log) :
    ∃ posted taken, Queued n t log posted taken := by
  induction log using List.reverseRecOn generalizing c' with
  | nil => exact ⟨[], [], .nil⟩
  | append_singleton l q ih =>
    obtain ⟨d, hd, _, hq⟩ := serial_snoc h
    obtain ⟨posted, taken, hp⟩ := ih hd fun x hx => hu x (List.mem_append_left _ hx)
    by_cases ha : q.accepted
    swap
    · exact ⟨_, _, .other (.inl ha) hp⟩
    obtain ⟨h1, h2⟩ := hu q (by simp) ha
    by_cases hcon : Concerns q.line n
    swap
    · exact ⟨_, _, .other (.inr (.inr hcon)) hp⟩
    cases hcon with
    | @message name args hst =>
      rcases hq with ⟨s, s', _, _, he⟩ | ⟨_, _, h3, _⟩
      swap
      · exact absurd (by rw [h3]; decide) ha
      obtain ⟨_, left, hk, _⟩ := C112_fifo hc hn hd hp
      rcases h2 name args hst with hqu | rfl | rfl
      · exact ⟨_, _, .other (.inr (.inl ⟨name, args, hst, hqu⟩)) hp⟩
      · obtain ⟨i, hb, _⟩ := accepted_behaves (serial_reachable hc hd) hk hst he ha
        obtain ⟨a, o, rfl, h4, _⟩ := vec_push hb
        exact ⟨_, _, .post hst h4 ha hp⟩
      · obtain ⟨i, hb, _⟩ := accepted_behaves (serial_reachable hc hd) hk hst he ha
        obtain ⟨rfl, _⟩ := vec_popFront hb
        by_cases hr : q.reply = b!"null"
        · exact ⟨_, _, .empty hst hr hp⟩
        · exact ⟨_, _, .take hst ha hr hp⟩
    | delete hst => exact absurd (.delete hst) h1
    | deleteNamespace hst hns => exact absurd (.deleteNamespace hst hns) h1

/-- C112: what a worker is told: the first value that nobody has taken, or `null` exactly if everything was taken. -/
theorem C112_take [StdSort] (hc : Reachable c) (hn : Holds c n (.vector t l₀)) (h : Serial pwd c (l ++ q :: l') c') (hp : Queued n t l posted taken)
    (ha : Authenticated pwd l q.conn) (hs : Statement q.line n b!"popFront" []) :
    q.accepted ∧ taken.length ≤ (l₀ ++ posted).length ∧ (q.reply = b!"null" ↔ taken.length = (l₀ ++ posted).length) ∧
      ∀ o, (l₀ ++ posted)[taken.length]? = some o → Printed q.reply o := by
  obtain ⟨x, hx⟩ := serial_prefix (l1 := l ++ [q]) (l2 := l') (by simpa using h)
  obtain ⟨d, hd, _, ⟨s, s', _, _, he⟩ | ⟨h1, _⟩⟩ := serial_snoc hx
  swap
  · exact absurd ha h1
  obtain ⟨dn, left, hk, e1, e2⟩ := C112_fifo hc hn hd hp
  have hlen : taken.length = dn.length := by rw [← e2.length_eq, List.length_map]
  have h2 := answers_vec (pwd := pwd) (s := some s) (serial_reachable hc hd) hk hs .popFront
  rw [e1, hlen, List.length_append]
  cases left with
  | nil =>
    obtain ⟨y, hy, _⟩ := h2; unfold Replies at hy; rw [he] at hy
    have e : q.reply = b!"null" := (Prod.mk.inj (Prod.mk.inj (Outcome.done.inj hy)).2).2
    exact ⟨by unfold Request.accepted; rw [e]; decide, by omega, ⟨fun _ => by simp, fun _ => e⟩, by simp⟩
  | cons o k =>
    obtain ⟨y, hy, _⟩ := h2; unfold Replies at hy; rw [he] at hy
    have e : q.reply = o.repr d.cfg.prec := (Prod.mk.inj (Prod.mk.inj (Outcome.done.inj hy)).2).2
    refine ⟨by unfold Request.accepted; rw [e]; exact (okReply_not_error (okReply_repr _ _)).1, by omega,
      ⟨fun h => absurd (e.symm.trans h) (repr_ne_null _ _), fun h => ?_⟩, fun o' ho => ?_⟩
    · simp at h
    · simp only [List.length_nil, Nat.add_zero, List.getElem?_append_right (Nat.le_refl _), Nat.sub_self, List.getElem?_cons_zero, Option.some.injEq] at ho
      subst ho
      exact ⟨_, e⟩

/-- C112: a producer's `pushBack:` of a literal of the type of the elements is accepted. -/
theorem C112_posts_are_accepted [StdSort] {o : Obj} (hc : Reachable c) (hn : Holds c n (.vector t l₀)) (h : Serial pwd c (l ++ q :: l') c')
    (hp : Queued n t l posted taken) (ha : Authenticated pwd l q.conn) (hq : Statement q.line n b!"pushBack:" [a]) (ho : Denotes t a o) :
    q.accepted ∧ q.reply = b!"null" := by
  suffices q.reply = b!"null" from ⟨by unfold Request.accepted; rw [this]; decide, this⟩
  obtain ⟨x, hx⟩ := serial_prefix (l1 := l ++ [q]) (l2 := l') (by simpa using h)
  obtain ⟨d, hd, _, ⟨s, s', _, _, h3⟩ | ⟨h1, _⟩⟩ := serial_snoc hx
  · obtain ⟨_, left, hk, _⟩ := C112_fifo hc hn hd hp
    obtain ⟨y, h7, _⟩ := answers_vec (pwd := pwd) (s := some s) (serial_reachable hc hd) hk hq (.pushBack ho)
    unfold Replies at h7
    rw [h3] at h7
    exact (Prod.mk.inj (Prod.mk.inj (Outcome.done.inj h7)).2).2
  · exact absurd ha h1

/-- C112: the `k`-th value taken is the `k`-th value that was in the vector or posted, whoever posted it and whoever took it. -/
theorem C112_order [StdSort] {k i : Nat} {r : Str} (hc : Reachable c) (hn : Holds c n (.vector t l₀)) (h : Serial pwd c log c')
    (hq : Queued n t log posted taken) (hk : taken[k]? = some (i, r)) : ∃ o, (l₀ ++ posted)[k]? = some o ∧ Printed r o := by
  obtain ⟨dn, left, _, e1, e2⟩ := C112_fifo hc hn h hq
  have h1 : (taken.map (·.2))[k]? = some r := by rw [List.getElem?_map, hk]; rfl
  obtain ⟨h2, h3⟩ := List.getElem?_eq_some_iff.1 h1
  have h4 : k < dn.length := by rw [← e2.length_eq]; exact h2
  refine ⟨dn[k], by rw [e1, List.getElem?_append_left h4, List.getElem?_eq_getElem h4], ?_⟩
  rw [← h3]
  exact List.Forall₂.get e2 h2 h4

/-- C112: for every schedule of the server. -/
theorem C112_server [StdSort] {es : List Event} {s : Server} (hc : Reachable c) (h : run (Server.init pwd c) es = some (.done s)) :
    ∃ log, Explains pwd c es s log ∧ ∀ n t l₀ l l', log = l ++ l' → Holds c n (.vector t l₀) → OnlyQueues n l → ∃ posted taken,
      Queued n t l posted taken ∧ (∀ (k i : Nat) (r : Str), taken[k]? = some (i, r) → ∃ o, (l₀ ++ posted)[k]? = some o ∧ Printed r o) ∧
      ∀ q l'', l' = q :: l'' → Authenticated pwd l q.conn → Statement q.line n b!"popFront" [] →
        (q.reply = b!"null" ↔ taken.length = (l₀ ++ posted).length) := by
  obtain ⟨log, hl⟩ := C44_serialized hc h
  refine ⟨log, hl, ?_⟩
  rintro n t l₀ l l' rfl hn hu
  obtain ⟨d, hd⟩ := serial_prefix hl.serial
  obtain ⟨posted, taken, hp⟩ := C112_every_history hc hn hd hu
  refine ⟨posted, taken, hp, fun k i r hk => C112_order hc hn hd hp hk, ?_⟩
  rintro q l'' rfl ha hs
  exact (C112_take hc hn hl.serial hp ha hs).2.2.1

/-! ### A case: clients 0 and 1 post, clients 2 and 3 take -/

def queueLog : List Request :=
  [⟨0, b!"log pushBack: \"b\";", b!"null"⟩, ⟨2, b!"log popFront;", b!"\"a\""⟩, ⟨1, b!"log pushBack: \"c\";", b!"null"⟩, ⟨3, b!"log popFront;", b!"\"b\""⟩,
   ⟨2, b!"log popFront;", b!"\"c\""⟩, ⟨3, b!"log popFront;", b!"null"⟩]

theorem queue_serial [StdSort] : Serial [] topicStart queueLog { fresh with vars := [(b!"log", .vector b!"String" [])] } :=
  serially_serial (ls := [(0, b!"log pushBack: \"b\";"), (2, b!"log popFront;"), (1, b!"log pushBack: \"c\";"), (3, b!"log popFront;"),
    (2, b!"log popFront;"), (3, b!"log popFront;")]) .nil (by simp) (by kernel_rfl)

theorem queue_five : Queued b!"log" b!"String" (queueLog.take 5) [.string b!"b", .string b!"c"] [(2, b!"\"a\""), (3, b!"\"b\""), (2, b!"\"c\"")] := by
  have acc : ∀ {i l r}, r ∉ errorTexts → (⟨i, l, r⟩ : Request).accepted := fun h => h
  have h1 := Queued.post (q := queueLog[0]) (reads (by decide +kernel)) (topic_lit b!"\"b\"" b!"b" (by kernel_rfl)) (acc (by decide)) (.nil (n := b!"log"))
  have h2 := Queued.take (q := queueLog[1]) (reads (by decide +kernel)) (acc (by decide)) (by decide) h1
  have h3 := Queued.post (q := queueLog[2]) (reads (by decide +kernel)) (topic_lit b!"\"c\"" b!"c" (by kernel_rfl)) (acc (by decide)) h2
  have h4 := Queued.take (q := queueLog[3]) (reads (by decide +kernel)) (acc (by decide)) (by decide) h3
  exact Queued.take (q := queueLog[4]) (reads (by decide +kernel)) (acc (by decide)) (by decide) h4

/-- The sixth request is told that there is nothing. -/
example [StdSort] := C112_take (l := queueLog.take 5) (q := queueLog[5]) (l' := []) topicStart_reachable topic_holds queue_serial queue_five (.inl rfl)
  (reads (by decide +kernel))
example [StdSort] := C112_fifo topicStart_reachable topic_holds queue_serial (.empty (q := queueLog[5]) (reads (by decide +kernel)) rfl queue_five)
example [StdSort] := C112_order (k := 1) topicStart_reachable topic_holds queue_serial (.empty (q := queueLog[5]) (reads (by decide +kernel)) rfl queue_five) rfl

theorem queue_only : OnlyQueues b!"log" (queueLog.take 2) := by
  have h0 : Statement b!"log pushBack: \"b\";" b!"log" b!"pushBack:" [b!"\"b\""] := reads (by decide +kernel)
  have h1 : Statement b!"log popFront;" b!"log" b!"popFront" [] := reads (by decide +kernel)
  have nd : ∀ {t m a}, Statement t b!"log" m a → ¬ Deletes t b!"log" := by
    intro t m a h hd
    cases hd with
    | delete h' => exact absurd (statement_unique h h').1 (by decide)
    | deleteNamespace h' _ => exact absurd (statement_unique h h').1 (by decide)
  intro q hq _
  simp only [queueLog, List.take, List.mem_cons, List.not_mem_nil, or_false] at hq
  rcases hq with rfl | rfl
  · exact ⟨nd h0, fun _ _ h => .inr (.inl (statement_unique h h0).2.1)⟩
  · exact ⟨nd h1, fun _ _ h => .inr (.inr (statement_unique h h1).2.1)⟩

example [StdSort] := C112_every_history (log := queueLog.take 2) topicStart_reachable topic_holds
  (serial_prefix (l1 := queueLog.take 2) (l2 := queueLog.drop 2) queue_serial).choose_spec queue_only

theorem queue_two : Queued b!"log" b!"String" (queueLog.take 2) [.string b!"b"] [(2, b!"\"a\"")] := by
  have acc : ∀ {i l r}, r ∉ errorTexts → (⟨i, l, r⟩ : Request).accepted := fun h => h
  have h1 := Queued.post (q := queueLog[0]) (reads (by decide +kernel)) (topic_lit b!"\"b\"" b!"b" (by kernel_rfl)) (acc (by decide)) (.nil (n := b!"log"))
  exact Queued.take (q := queueLog[1]) (reads (by decide +kernel)) (acc (by decide)) (by decide) h1

example [StdSort] := C112_posts_are_accepted (l := queueLog.take 2) (q := queueLog[2]) (l' := queueLog.drop 3) topicStart_reachable topic_holds queue_serial
  queue_two (.inl rfl) (reads (by decide +kernel)) (topic_lit b!"\"c\"" b!"c" (by kernel_rfl))

end Knuckle.Props
