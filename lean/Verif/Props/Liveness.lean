/-
C65: requests are answered eventually.

The theorems are about infinite executions: every sequence of events that the server can go through, fair to one connection.
-/
import Verif.Spec.Liveness
import Verif.Props.Server

namespace Knuckle.Props

open Spec

variable {pwd : Str} {c : Ctx} {ev : Nat → Event} {st : Nat → Server} {i : Nat}

theorem firstEvents_succ (ev : Nat → Event) (n : Nat) : firstEvents ev (n + 1) = firstEvents ev n ++ [ev n] := by
  simp [firstEvents, List.range_succ]

theorem execution_run [StdSort] (h : Execution pwd c ev st) (n : Nat) : run (Server.init pwd c) (firstEvents ev n) = some (.done (st n)) := by
  induction n with
  | zero => rw [h.start]; rfl
  | succ n ih => rw [firstEvents_succ, run_append, ih]; simp only [run_single, h.next]

/-- The state of connection `i` is unchanged in phase and output, and has at least the same input. -/
theorem waits [StdSort] {s s' : Server} {k : Conn} {e : Event} (hk : s.conns[i]? = some k) (hst : step s e = some (.done s'))
    (h1 : k.phase = .reading → e ≠ .read i ∧ e ≠ .readErr i) (h2 : ∀ r, k.phase = .writing r → e ≠ .wrote i ∧ e ≠ .writeErr i) :
    ∃ k', s'.conns[i]? = some k' ∧ k'.phase = k.phase ∧ k'.out = k.out := by
  by_cases hn : NotAbout i e
  · exact ⟨k, C48_others_cannot_interfere hk (es := [e]) (by simpa using hn) (by rw [run_single]; exact hst), rfl, rfl⟩
  · have hlt : i < s.conns.length := by
      by_contra hn
      rw [List.getElem?_eq_none (by omega)] at hk; cases hk
    cases e with
    | accept => exact absurd trivial hn
    | acceptErr => exact absurd trivial hn
    | recv j b =>
      have hj : j = i := by simpa [NotAbout] using hn
      subst hj
      simp only [step, hk] at hst
      split at hst
      · cases hst
      · cases hst; exact ⟨_, List.getElem?_set_self hlt, rfl, rfl⟩
    | read j =>
      have hj : j = i := by simpa [NotAbout] using hn
      subst hj
      simp only [step, hk] at hst
      split at hst
      · rename_i hp; exact absurd rfl (h1 hp).1
      · cases hst
    | readErr j =>
      have hj : j = i := by simpa [NotAbout] using hn
      subst hj
      simp only [step, hk] at hst
      split at hst
      · rename_i hp; exact absurd rfl (h1 hp).2
      · cases hst
    | wrote j =>
      have hj : j = i := by simpa [NotAbout] using hn
      subst hj
      simp only [step, hk] at hst
      split at hst
      · rename_i r hp; exact absurd rfl (h2 r hp).1
      · cases hst
    | wroteShort j =>
      have hj : j = i := by simpa [NotAbout] using hn
      subst hj
      simp only [step, hk] at hst
      split at hst <;> cases hst
    | writeErr j =>
      have hj : j = i := by simpa [NotAbout] using hn
      subst hj
      simp only [step, hk] at hst
      split at hst
      · rename_i r hp; exact absurd rfl (h2 r hp).2
      · cases hst

/-- An event of a kind happens after `n`: it happens for the first time. -/
theorem first_event {P : Event → Prop} {n m : Nat} (hm : n ≤ m) (h : P (ev m)) :
    ∃ m, n ≤ m ∧ P (ev m) ∧ ∀ j, n ≤ j → j < m → ¬ P (ev j) := by
  classical
  have hex : ∃ d, P (ev (n + d)) := ⟨m - n, by rwa [Nat.add_sub_cancel' hm]⟩
  refine ⟨n + Nat.find hex, by omega, Nat.find_spec hex, fun j h1 h2 h3 => ?_⟩
  exact Nat.find_min hex (m := j - n) (by omega) (by rwa [Nat.add_sub_cancel' h1])

theorem waits_until [StdSort] (h : Execution pwd c ev st) {n m : Nat} {k : Conn} (hm : n ≤ m) (hk : (st n).conns[i]? = some k)
    (h1 : k.phase = .reading → ∀ j, n ≤ j → j < m → ¬ (ev j = .read i ∨ ev j = .readErr i))
    (h2 : ∀ r, k.phase = .writing r → ∀ j, n ≤ j → j < m → ¬ (ev j = .wrote i ∨ ev j = .writeErr i)) :
    ∃ k', (st m).conns[i]? = some k' ∧ k'.phase = k.phase ∧ k'.out = k.out := by
  induction m, hm using Nat.le_induction with
  | base => exact ⟨k, hk, rfl, rfl⟩
  | succ m hm ih =>
    obtain ⟨k', hk', hp, ho⟩ := ih (fun e j a b => h1 e j a (by omega)) (fun r e j a b => h2 r e j a (by omega))
    obtain ⟨k2, a, b, d⟩ := waits hk' (h.next m) (fun e => not_or.1 (h1 (hp ▸ e) m hm (by omega)))
      (fun r e => not_or.1 (h2 r (hp ▸ e) m hm (by omega)))
    exact ⟨k2, a, b.trans hp, d.trans ho⟩

theorem count_wire (ls : List Str) (h : ∀ l ∈ ls, (10 : Byte) ∉ l) : (wire ls).count 10 = ls.length := by
  induction ls with
  | nil => rfl
  | cons l ls ih =>
    have e : wire (l :: ls) = l ++ [10] ++ wire ls := by simp [wire]
    rw [e, List.count_append, List.count_append, ih fun x hx => h x (by simp [hx]), List.count_eq_zero_of_not_mem (h l (by simp))]
    simp; omega

theorem count_requests [StdSort] {es : List Event} {s : Server} {log : List Request} {k : Conn} (h : Explains pwd c es s log) (hk : s.conns[i]? = some k) :
    (received i es).count 10 = (requestsOf i log).length + k.inbuf.count 10 := by
  rw [h.input i k hk, List.count_append, count_wire, List.length_map]
  intro l hl
  obtain ⟨q, hq, rfl⟩ := List.mem_map.1 hl
  exact h.oneLine q (List.mem_of_mem_filter hq)

theorem received_mono (ev : Nat → Event) (i : Nat) {n m : Nat} (h : n ≤ m) :
    (received i (firstEvents ev n)).count 10 ≤ (received i (firstEvents ev m)).count 10 := by
  induction m, h using Nat.le_induction with
  | base => exact Nat.le_refl _
  | succ m _ ih => rw [firstEvents_succ, received_append, List.count_append]; omega

/-- The number of requests of connection `i` never decreases. -/
theorem requests_mono [StdSort] (hc : Reachable c) (h : Execution pwd c ev st) {n m : Nat} (hm : n ≤ m) {log : List Request}
    (hl : Explains pwd c (firstEvents ev n) (st n) log) :
    ∃ log', Explains pwd c (firstEvents ev m) (st m) (log ++ log') := by
  induction m, hm using Nat.le_induction with
  | base => exact ⟨[], by simpa using hl⟩
  | succ m _ ih =>
    obtain ⟨l, hl⟩ := ih
    obtain ⟨l', hl'⟩ := C44_respects_time hc hl (es' := [ev m]) (s' := st (m + 1)) (by rw [run_single]; exact h.next m)
    exact ⟨l ++ l', by rw [firstEvents_succ, ← List.append_assoc]; exact hl'⟩

theorem progress [StdSort] (hc : Reachable c) (h : Execution pwd c ev st) (hf : FairTo ev st i) {N n0 : Nat}
    (hN : N ≤ (received i (firstEvents ev n0)).count 10) (d : Nat) :
    ∀ n, n0 ≤ n → ∀ k log, (st n).conns[i]? = some k → Explains pwd c (firstEvents ev n) (st n) log →
      N ≤ (requestsOf i log).length + d →
      ∃ m k' log', n ≤ m ∧ (st m).conns[i]? = some k' ∧ Explains pwd c (firstEvents ev m) (st m) (log ++ log') ∧
        (k'.phase = .dead ∨ (k'.phase = .reading ∧ N ≤ (requestsOf i (log ++ log')).length)) := by
  induction d with
  | zero =>
    intro n hn k log hk hl hd
    cases hp : k.phase with
    | dead => exact ⟨n, k, [], Nat.le_refl _, hk, by simpa using hl, .inl hp⟩
    | reading => exact ⟨n, k, [], Nat.le_refl _, hk, by simpa using hl, .inr ⟨hp, by simpa using hd⟩⟩
    | writing r =>
      obtain ⟨m0, hm0, he0⟩ := hf.writes n k r hk hp
      obtain ⟨m, hm, he, hno⟩ := first_event (P := fun e => e = .wrote i ∨ e = .writeErr i) hm0 he0
      obtain ⟨k', hk', hp', ho'⟩ := waits_until h hm hk (fun e => by rw [hp] at e; cases e) (fun _ _ => hno)
      obtain ⟨l', hl'⟩ := requests_mono hc h (m := m + 1) (Nat.le_succ_of_le hm) hl
      have hlt : i < (st m).conns.length := by
        by_contra hn
        rw [List.getElem?_eq_none (by omega)] at hk'; cases hk'
      have hst := h.next m
      rcases he with he | he <;> rw [he] at hst <;> simp only [step, hk', hp'.trans hp] at hst
      · split at hst
        · simp only [Option.some.injEq, Outcome.done.injEq] at hst
          refine ⟨m + 1, _, l', by omega, by rw [← hst]; exact List.getElem?_set_self hlt, hl', .inr ⟨rfl, ?_⟩⟩
          rw [requestsOf_append, List.length_append]; omega
        · cases hst
      · simp only [Option.some.injEq, Outcome.done.injEq] at hst
        exact ⟨m + 1, _, l', by omega, by rw [← hst]; exact List.getElem?_set_self hlt, hl', .inl rfl⟩
  | succ d ih =>
    -- from a state that waits for a request
    have base : ∀ n, n0 ≤ n → ∀ k log, (st n).conns[i]? = some k → Explains pwd c (firstEvents ev n) (st n) log →
        N ≤ (requestsOf i log).length + (d + 1) → k.phase = .reading →
        ∃ m k' log', n ≤ m ∧ (st m).conns[i]? = some k' ∧ Explains pwd c (firstEvents ev m) (st m) (log ++ log') ∧
          (k'.phase = .dead ∨ (k'.phase = .reading ∧ N ≤ (requestsOf i (log ++ log')).length)) := by
      intro n hn k log hk hl hd hp
      by_cases hle : N ≤ (requestsOf i log).length
      · exact ⟨n, k, [], Nat.le_refl _, hk, by simpa using hl, .inr ⟨hp, by simpa using hle⟩⟩
      · have hcount := count_requests hl hk
        have hmono := received_mono ev i hn
        have hin : (10 : Byte) ∈ k.inbuf := List.count_pos_iff.1 (by omega)
        obtain ⟨m0, hm0, he0⟩ := hf.reads n k hk hp hin
        obtain ⟨m, hm, he, hno⟩ := first_event (P := fun e => e = .read i ∨ e = .readErr i) hm0 he0
        obtain ⟨k', hk', hp', ho'⟩ := waits_until h hm hk (fun _ => hno) (fun r e => by rw [hp] at e; cases e)
        obtain ⟨l', hl'⟩ := requests_mono hc h hm hl
        have hlt : i < (st m).conns.length := by
          by_contra hn
          rw [List.getElem?_eq_none (by omega)] at hk'; cases hk'
        have hst := h.next m
        rcases he with he | he
        · -- the line is read
          rw [he] at hst
          have hp2 := hp'.trans hp
          have hin' : (10 : Byte) ∈ k'.inbuf := by
            by_contra hn
            simp only [step, hk', hp2, if_true, splitLine_none.2 hn] at hst
            cases hst
          obtain ⟨line, rest, e1, e2, ⟨s', k2, h1, h2, h3, h4⟩ | ⟨h1, _⟩⟩ :=
            C48_complete_lines_can_be_executed hc (execution_run h m) hk' hp2 hin'
          · rw [h1] at hst
            simp only [Option.some.injEq, Outcome.done.injEq] at hst
            subst hst
            obtain ⟨l2, hl2⟩ := requests_mono hc h (m := m + 1) (Nat.le_succ m) hl'
            have c1 := count_requests hl' hk'
            have c2 := count_requests hl2 h2
            have c3 : (received i (firstEvents ev m)).count 10 = (received i (firstEvents ev (m + 1))).count 10 := by
              rw [firstEvents_succ, received_append, he]; simp [received]
            have c4 : k'.inbuf.count 10 = k2.inbuf.count 10 + 1 := by
              rw [e1, h3, List.count_append, List.count_eq_zero_of_not_mem e2]; simp
            have c5 : (requestsOf i (log ++ l')).length ≥ (requestsOf i log).length := by
              rw [requestsOf_append, List.length_append]; omega
            have c6 : (requestsOf i (log ++ l' ++ l2)).length = (requestsOf i (log ++ l')).length + 1 := by omega
            obtain ⟨m3, k3, l3, a1, a2, a3, a4⟩ := ih (m + 1) (by omega) k2 _ h2 hl2 (by omega)
            exact ⟨m3, k3, l' ++ (l2 ++ l3), by omega, a2, by simpa using a3, by simpa using a4⟩
          · rw [h1] at hst; cases hst
        · rw [he] at hst
          simp only [step, hk', hp'.trans hp, if_true, Option.some.injEq, Outcome.done.injEq] at hst
          obtain ⟨l2, hl2⟩ := requests_mono hc h (m := m + 1) (Nat.le_succ m) hl'
          exact ⟨m + 1, _, l' ++ l2, by omega, by rw [← hst]; exact List.getElem?_set_self hlt, by simpa using hl2, .inl rfl⟩
    intro n hn k log hk hl hd
    cases hp : k.phase with
    | dead => exact ⟨n, k, [], Nat.le_refl _, hk, by simpa using hl, .inl hp⟩
    | reading => exact base n hn k log hk hl hd hp
    | writing r =>
      obtain ⟨m0, hm0, he0⟩ := hf.writes n k r hk hp
      obtain ⟨m, hm, he, hno⟩ := first_event (P := fun e => e = .wrote i ∨ e = .writeErr i) hm0 he0
      obtain ⟨k', hk', hp', ho'⟩ := waits_until h hm hk (fun e => by rw [hp] at e; cases e) (fun _ _ => hno)
      obtain ⟨l', hl'⟩ := requests_mono hc h (m := m + 1) (Nat.le_succ_of_le hm) hl
      have hlt : i < (st m).conns.length := by
        by_contra hn
        rw [List.getElem?_eq_none (by omega)] at hk'; cases hk'
      have hst := h.next m
      rcases he with he | he <;> rw [he] at hst <;> simp only [step, hk', hp'.trans hp] at hst
      · split at hst
        · simp only [Option.some.injEq, Outcome.done.injEq] at hst
          obtain ⟨m3, k3, l3, a1, a2, a3, a4⟩ := base (m + 1) (by omega) _ _ (by rw [← hst]; exact List.getElem?_set_self hlt) hl'
            (by rw [requestsOf_append, List.length_append]; omega) rfl
          exact ⟨m3, k3, l' ++ l3, by omega, a2, by simpa using a3, by simpa using a4⟩
        · cases hst
      · simp only [Option.some.injEq, Outcome.done.injEq] at hst
        exact ⟨m + 1, _, l', by omega, by rw [← hst]; exact List.getElem?_set_self hlt, hl', .inl rfl⟩

/-- C65: if the operating system is fair to a connection and its client takes the replies, then every line that has arrived
there (by time `n`) is answered some time, or the connection ends; no matter what the other clients do. -/
theorem C65_every_line_is_answered [StdSort] {n : Nat} {k : Conn} (hc : Reachable c) (h : Execution pwd c ev st) (hf : FairTo ev st i)
    (hk : (st n).conns[i]? = some k) :
    ∃ m k' log, n ≤ m ∧ (st m).conns[i]? = some k' ∧ Explains pwd c (firstEvents ev m) (st m) log ∧
      (k'.phase = .dead ∨
        (k'.out = wire ((requestsOf i log).map Request.reply) ∧ (received i (firstEvents ev n)).count 10 ≤ (requestsOf i log).length)) := by
  obtain ⟨log, hl⟩ := C44_serialized hc (execution_run h n)
  obtain ⟨m, k', log', h1, h2, h3, h4⟩ := progress hc h hf (Nat.le_refl _) ((received i (firstEvents ev n)).count 10) n (Nat.le_refl _)
    k log hk hl (by omega)
  refine ⟨m, k', _, h1, h2, h3, h4.imp id fun h5 => ⟨?_, h5.2⟩⟩
  have := h3.output i k' h2
  simpa only [Written, h5.1] using this

/-- C65: so if there are no errors of the network and the client does not ask for the end of its connection, every line it
sends is answered, by one line of output. -/
theorem C65_answered_without_errors [StdSort] {n : Nat} {k : Conn} (hc : Reachable c) (h : Execution pwd c ev st) (hf : FairTo ev st i)
    (hk : (st n).conns[i]? = some k) (hr : ∀ m, ev m ≠ .readErr i) (hw : ∀ m, ev m ≠ .writeErr i)
    (hcl : ∀ m ls rest, received i (firstEvents ev m) = wire ls ++ rest → ∀ l ∈ ls, ¬ Closes l) :
    ∃ m k' log, n ≤ m ∧ (st m).conns[i]? = some k' ∧ Explains pwd c (firstEvents ev m) (st m) log ∧
      k'.out = wire ((requestsOf i log).map Request.reply) ∧ (received i (firstEvents ev n)).count 10 ≤ (requestsOf i log).length := by
  obtain ⟨m, k', log, h1, h2, h3, h4⟩ := C65_every_line_is_answered hc h hf hk
  refine ⟨m, k', log, h1, h2, h3, h4.resolve_left fun hd => ?_⟩
  rcases (h3.ended i k' h2).1 hd with h5 | h5 | h5
  · obtain ⟨q, hq, hqi, hq2⟩ := h5
    exact hcl m _ _ (h3.input i k' h2) q.line (List.mem_map.2 ⟨q, List.mem_filter.2 ⟨hq, by simp [hqi]⟩, rfl⟩) hq2
  · obtain ⟨j, _, hj⟩ := List.mem_map.1 h5; exact hr j hj
  · obtain ⟨j, _, hj⟩ := List.mem_map.1 h5; exact hw j hj

/-- An execution: client 1 sends a line and never takes the reply; client 0 sends a request. -/
def stallEvents : Nat → Event
  | 0 => .accept
  | 1 => .accept
  | 2 => .recv 1 b!"hello\n"
  | 3 => .read 1
  | 4 => .recv 0 b!"Context listVariables;\n"
  | 5 => .read 0
  | 6 => .wrote 0
  | _ => .recv 0 []

/-- The states of that execution. -/
def stallStates : Nat → Server
  | 0 => Server.init [] fresh
  | 1 => ⟨[], fresh, [⟨⟨true, true⟩, [], .reading, []⟩], true⟩
  | 2 => ⟨[], fresh, [⟨⟨true, true⟩, [], .reading, []⟩, ⟨⟨true, true⟩, [], .reading, []⟩], true⟩
  | 3 => ⟨[], fresh, [⟨⟨true, true⟩, [], .reading, []⟩, ⟨⟨true, true⟩, b!"hello\n", .reading, []⟩], true⟩
  | 4 => ⟨[], fresh, [⟨⟨true, true⟩, [], .reading, []⟩, ⟨⟨true, true⟩, [], .writing b!"SyntaxError: invalid statement.", []⟩], true⟩
  | 5 => ⟨[], fresh, [⟨⟨true, true⟩, b!"Context listVariables;\n", .reading, []⟩,
      ⟨⟨true, true⟩, [], .writing b!"SyntaxError: invalid statement.", []⟩], true⟩
  | 6 => ⟨[], fresh, [⟨⟨true, true⟩, [], .writing b!"[]", []⟩, ⟨⟨true, true⟩, [], .writing b!"SyntaxError: invalid statement.", []⟩], true⟩
  | _ => ⟨[], fresh, [⟨⟨true, true⟩, [], .reading, b!"[]\n"⟩, ⟨⟨true, true⟩, [], .writing b!"SyntaxError: invalid statement.", []⟩], true⟩

theorem stall_execution [StdSort] : Execution [] fresh stallEvents stallStates := by
  refine ⟨rfl, fun n => ?_⟩
  match n with
  | 0 => exact (by kernel_rfl : step (stallStates 0) (stallEvents 0) = some (.done (stallStates 1)))
  | 1 => exact (by kernel_rfl : step (stallStates 1) (stallEvents 1) = some (.done (stallStates 2)))
  | 2 => exact (by kernel_rfl : step (stallStates 2) (stallEvents 2) = some (.done (stallStates 3)))
  | 3 => exact (by kernel_rfl : step (stallStates 3) (stallEvents 3) = some (.done (stallStates 4)))
  | 4 => exact (by kernel_rfl : step (stallStates 4) (stallEvents 4) = some (.done (stallStates 5)))
  | 5 => exact (by kernel_rfl : step (stallStates 5) (stallEvents 5) = some (.done (stallStates 6)))
  | 6 => exact (by kernel_rfl : step (stallStates 6) (stallEvents 6) = some (.done (stallStates 7)))
  | n + 7 => rfl

theorem stall_fair [StdSort] : FairTo stallEvents stallStates 0 := by
  constructor
  · intro n k hk hp hin
    match n with
    | 0 => cases hk
    | 1 => cases hk; cases hin
    | 2 => cases hk; cases hin
    | 3 => cases hk; cases hin
    | 4 => cases hk; cases hin
    | 5 => exact ⟨5, Nat.le_refl _, .inl rfl⟩
    | 6 => cases hk; cases hp
    | n + 7 => cases hk; cases hin
  · intro n k r hk hp
    match n with
    | 0 => cases hk
    | 1 => cases hk; cases hp
    | 2 => cases hk; cases hp
    | 3 => cases hk; cases hp
    | 4 => cases hk; cases hp
    | 5 => cases hk; cases hp
    | 6 => exact ⟨6, Nat.le_refl _, .inl rfl⟩
    | n + 7 => cases hk; cases hp

/-- The execution is not fair to client 1, but client 0 is answered. -/
example [StdSort] : ∃ m k' log, 5 ≤ m ∧ (stallStates m).conns[0]? = some k' ∧ Explains [] fresh (firstEvents stallEvents m) (stallStates m) log ∧
    (k'.phase = .dead ∨ (k'.out = wire ((requestsOf 0 log).map Request.reply) ∧ 1 ≤ (requestsOf 0 log).length)) := by
  have := C65_every_line_is_answered (n := 5) (i := 0) fresh_reachable stall_execution stall_fair rfl
  have e : (received 0 (firstEvents stallEvents 5)).count 10 = 1 := by decide +kernel
  rwa [e] at this

end Knuckle.Props
