/-
C118: while nobody changes the data, all questions are answered as if at one moment.

`Serial pwd c log c'` is what C44 provides for every schedule of the server.
-/
import Verif.Props.Grow
import Verif.Props.Isolation
import Verif.Props.Requests
import Verif.Proofs.Log
import Verif.Spec.Still

namespace Knuckle.Props

open Spec

variable {pwd : Str} {c c' d : Ctx} {l l' l1 l2 l3 log : List Request} {q q1 q2 : Request}

/-- C118: requests that are refused, questions and requests for the connection leave the data as they are. -/
theorem C118_still [StdSort] (hc : Reachable c) (h : Serial pwd c (l1 ++ l2) c') (hs : ∀ q ∈ l2, Still q) :
    ∃ d, Serial pwd c l1 d ∧ SameData d c' := by
  induction l2 using List.reverseRecOn generalizing c' with
  | nil => exact ⟨c', by simpa using h, rfl, rfl⟩
  | append_singleton l2 q ih =>
    rw [← List.append_assoc] at h
    obtain ⟨x, hx, _, ⟨s, s', _, _, he⟩ | ⟨_, _, _, rfl⟩⟩ := serial_snoc h
    · obtain ⟨d, h1, h2⟩ := ih hx fun q hq => hs q (List.mem_append_left _ hq)
      refine ⟨d, h1, sameData_trans h2 ?_⟩
      have rx := serial_reachable hc hx
      rcases hs q (by simp) with ha | ⟨a, name, args, hst, hq⟩ | hC
      · exact (C32_refused_requests_change_nothing rx he (not_not.1 ha)).1
      · exact (C33_questions_change_nothing rx hst hq he).1
      · exact toConnection_sameData hC he
    · exact ih hx fun q hq => hs q (List.mem_append_left _ hq)

/-- C118: all replies that authenticated clients get meanwhile are those of one context, the one at the beginning. -/
theorem C118_snapshot [StdSort] (hc : Reachable c) (h : Serial pwd c (l1 ++ l2 ++ l') c') (hs : ∀ q ∈ l2, Still q) :
    ∃ d, Serial pwd c l1 d ∧ ∀ k q k', l2 = k ++ q :: k' → Authenticated pwd (l1 ++ k) q.conn → ¬ ToConnection q.line →
      ∀ s, ∃ x, execute pwd d s q.line = .done (x, s, q.reply) := by
  obtain ⟨d, hd⟩ := serial_prefix (l1 := l1) (l2 := l2 ++ l') (by simpa using h)
  refine ⟨d, hd, ?_⟩
  rintro k q k' rfl ha hC s
  obtain ⟨y, hy⟩ := serial_prefix (l1 := l1 ++ k ++ [q]) (l2 := k' ++ l') (by simpa using h)
  obtain ⟨x, hx, _, ⟨s1, s1', _, _, he⟩ | ⟨h1, _⟩⟩ := serial_snoc hy
  swap
  · exact absurd ha h1
  obtain ⟨d', hd', hsd⟩ := C118_still hc hx fun q hq => hs q (by simp [hq])
  have e := (serial_det hd hd' rfl).2
  subst e
  have h2 := C51_logging_does_not_matter (pwd := pwd) (s := s) (text := q.line) hsd
  rw [execute_anyone hC he pwd s] at h2
  cases hx : execute pwd d s q.line with
  | ub => rw [hx] at h2; exact h2.elim
  | done z =>
    obtain ⟨z, s2, r⟩ := z
    rw [hx] at h2
    obtain ⟨_, rfl, rfl⟩ := h2
    exact ⟨z, rfl⟩

/-- C118: in particular the same question is answered the same, whoever asks it. -/
theorem C118_repeatable [StdSort] (hc : Reachable c) (h : Serial pwd c (l1 ++ q1 :: (l2 ++ q2 :: l')) c') (hs1 : Still q1) (hs : ∀ q ∈ l2, Still q)
    (hs2 : Still q2) (ha1 : Authenticated pwd l1 q1.conn) (ha2 : Authenticated pwd (l1 ++ q1 :: l2) q2.conn) (hC : ¬ ToConnection q1.line)
    (hl : q2.line = q1.line) : q2.reply = q1.reply := by
  obtain ⟨d, _, hd⟩ := C118_snapshot (l1 := l1) (l2 := q1 :: (l2 ++ [q2])) (l' := l') hc (by simpa using h) (by
    intro q hq
    simp only [List.mem_cons, List.mem_append, List.not_mem_nil, or_false] at hq
    rcases hq with rfl | hq | rfl
    · exact hs1
    · exact hs q hq
    · exact hs2)
  obtain ⟨x, hx⟩ := hd [] q1 (l2 ++ [q2]) rfl (by simpa using ha1) hC none
  obtain ⟨y, hy⟩ := hd (q1 :: l2) q2 [] (by simp) ha2 (by rwa [hl]) none
  rw [hl, hx] at hy
  exact ((Prod.mk.inj (Prod.mk.inj (Outcome.done.inj hy)).2).2).symm

/-- C118: so if a question is answered differently, something was changed in between: by an accepted request that is not a question. -/
theorem C118_change [StdSort] (hc : Reachable c) (h : Serial pwd c (l1 ++ q1 :: (l2 ++ q2 :: l')) c') (hs1 : Still q1) (hs2 : Still q2)
    (ha1 : Authenticated pwd l1 q1.conn) (ha2 : Authenticated pwd (l1 ++ q1 :: l2) q2.conn) (hC : ¬ ToConnection q1.line)
    (hl : q2.line = q1.line) (hr : q2.reply ≠ q1.reply) :
    ∃ q ∈ l2, q.accepted ∧ ¬ ToConnection q.line ∧ ∀ a name args, Statement q.line a name args → ¬ Question name := by
  by_contra hno
  refine hr (C118_repeatable hc h hs1 (fun q hq => ?_) hs2 ha1 ha2 hC hl)
  by_contra hn
  unfold Still at hn
  push Not at hn
  exact hno ⟨q, hq, hn.1, hn.2.2, hn.2.1⟩

/-- C118: for every schedule of the server. -/
theorem C118_server [StdSort] {es : List Event} {s : Server} (hc : Reachable c) (h : run (Server.init pwd c) es = some (.done s)) :
    ∃ log, Explains pwd c es s log ∧ ∀ l1 l2 l', log = l1 ++ l2 ++ l' → (∀ q ∈ l2, Still q) →
      ∃ d, Serial pwd c l1 d ∧ ∀ k q k', l2 = k ++ q :: k' → Authenticated pwd (l1 ++ k) q.conn → ¬ ToConnection q.line →
        ∀ s, ∃ x, execute pwd d s q.line = .done (x, s, q.reply) := by
  obtain ⟨log, hl⟩ := C44_serialized hc h
  refine ⟨log, hl, ?_⟩
  rintro l1 l2 l' rfl hs
  exact C118_snapshot hc hl.serial hs

/-! ### Cases -/

def stillLog : List Request :=
  [⟨0, b!"seen add: \"ann\";", b!"null"⟩, ⟨1, b!"seen get;", b!"{\"ann\"}"⟩, ⟨2, b!"seen foo;", b!"RuntimeError: invalid message."⟩,
   ⟨2, b!"seen size;", b!"1"⟩, ⟨0, b!"seen get;", b!"{\"ann\"}"⟩, ⟨0, b!"seen clear;", b!"null"⟩, ⟨1, b!"seen get;", b!"{}"⟩]

theorem still_serial [StdSort] : Serial [] growStart stillLog { fresh with vars := [(b!"seen", .set b!"String" [])] } :=
  serially_serial (ls := [(0, b!"seen add: \"ann\";"), (1, b!"seen get;"), (2, b!"seen foo;"), (2, b!"seen size;"), (0, b!"seen get;"),
    (0, b!"seen clear;"), (1, b!"seen get;")]) .nil (by simp) (by kernel_rfl)

theorem still_get {i : Nat} {r : Str} : Still ⟨i, b!"seen get;", r⟩ :=
  .inr (.inl ⟨b!"seen", b!"get", [], reads (by kernel_rfl), by decide⟩)
theorem still_size {i : Nat} {r : Str} : Still ⟨i, b!"seen size;", r⟩ :=
  .inr (.inl ⟨b!"seen", b!"size", [], reads (by kernel_rfl), by decide⟩)
theorem still_foo {i : Nat} : Still ⟨i, b!"seen foo;", b!"RuntimeError: invalid message."⟩ :=
  .inl (not_not.2 (by decide : b!"RuntimeError: invalid message." ∈ errorTexts))
theorem still_variable : ¬ ToConnection b!"seen get;" := by
  rintro ⟨n, l, h⟩
  exact absurd (statement_unique h (reads (by kernel_rfl) : Statement b!"seen get;" b!"seen" b!"get" [])).1 (by decide)

example [StdSort] := C118_snapshot (l1 := stillLog.take 1) (l2 := [stillLog[1], stillLog[2], stillLog[3], stillLog[4]]) (l' := stillLog.drop 5)
  growStart_reachable still_serial (by
    intro q hq
    simp only [List.mem_cons, List.not_mem_nil, or_false] at hq
    rcases hq with rfl | rfl | rfl | rfl
    · exact still_get
    · exact still_foo
    · exact still_size
    · exact still_get)
example [StdSort] := C118_repeatable (l1 := stillLog.take 1) (q1 := stillLog[1]) (l2 := [stillLog[2], stillLog[3]]) (q2 := stillLog[4]) (l' := stillLog.drop 5)
  growStart_reachable still_serial still_get (by
    intro q hq
    simp only [List.mem_cons, List.not_mem_nil, or_false] at hq
    rcases hq with rfl | rfl
    · exact still_foo
    · exact still_size) still_get (.inl rfl) (.inl rfl) still_variable rfl
/-- Client 1 sees that somebody cleared the set. -/
example [StdSort] := C118_change (l1 := stillLog.take 1) (q1 := stillLog[1]) (l2 := [stillLog[2], stillLog[3], stillLog[4], stillLog[5]]) (q2 := stillLog[6])
  (l' := []) growStart_reachable still_serial still_get still_get (.inl rfl) (.inl rfl) still_variable rfl (by decide)
example [StdSort] := C118_server growStart_reachable grow_run.choose_spec.1

end Knuckle.Props
