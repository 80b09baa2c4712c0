/-
C106: the whole server at the level of indices.
-/
import Verif.Proofs.IndexedServer
import Verif.Props.LongVectors
import Verif.Props.Sizes
import Verif.Props.LogFile

namespace Knuckle.Props

open Knuckle.Spec Knuckle.Idx

variable {c : Ctx} {pwd : Str} {es : List Event}

theorem textOf_fits {o : Obj} (h : (textOf o).length < 2147483648) : FitsObj o := by
  cases o with
  | string v => exact h
  | _ => trivial

theorem fitsInst_of {i : Inst} (h : ∀ z ∈ sizesOf i, z < 2147483648) : FitsInst i := by
  unfold sizesOf at h
  have h1 := h _ List.mem_cons_self
  have h2 : ∀ t ∈ textsOf i, t.length < 2147483648 := fun t ht => h _ (List.mem_cons_of_mem _ (List.mem_map_of_mem ht))
  cases i with
  | string v => exact h2 v (by simp [textsOf])
  | vector t l => exact ⟨by simpa [cellsOf] using h1, fun o ho => textOf_fits (h2 _ (List.mem_map_of_mem ho))⟩
  | set t l => exact ⟨by simpa [cellsOf] using h1, fun o ho => textOf_fits (h2 _ (List.mem_map_of_mem ho))⟩
  | dictionary t u l =>
    exact ⟨by simpa [cellsOf] using h1, fun p hp => ⟨textOf_fits (h2 _ (List.mem_append_left _ (List.mem_map.2 ⟨p, hp, rfl⟩))),
      textOf_fits (h2 _ (List.mem_append_right _ (List.mem_map.2 ⟨p, hp, rfl⟩)))⟩⟩
  | _ => trivial

theorem fitsCtx_of (hc : Inv c) (h : ∀ n i, Holds c n i → n.length < 2147483648 ∧ ∀ z ∈ sizesOf i, z < 2147483648) : FitsCtx c := by
  intro v hv
  have := h v.1 v.2 (lookup_of_mem hc.asc hv)
  exact ⟨this.1, fitsInst_of this.2⟩

/-- C106: how many calls the stack must have room for: a request shorter than 2^31 bytes is read as the model without indices reads it, if the stack
has room for as many calls as are active at the same time (C71), and makes the stack overflow otherwise. -/
theorem C106_stack_needed {text : Str} (short : text.length < 2147483648) (stack : Nat) :
    ((parseD text).2.1 ≤ stack →
      (∃ p, parse text = .ok p ∧ Idx.parse stack text = .ok p) ∨ (parse text = .err .invalidStatement ∧ Idx.parse stack text = .throws .invalidStatement)) ∧
    (stack < (parseD text).2.1 → Idx.parse stack text = .stack) := by
  refine ⟨fun h => ?_, fun h => parse_stack short h⟩
  rcases parse_cases text with ⟨p, hp⟩ | hp
  · exact Or.inl ⟨p, hp, parse_ok short (isStatement_room short h) hp⟩
  · refine Or.inr ⟨hp, parse_invalid (isStatement_room short h) ?_⟩
    cases hs : Knuckle.isStatement text with
    | false => rfl
    | true =>
      obtain ⟨a, n, l, hst⟩ := (isStatement_iff text).1 hs
      rw [(parse_iff text ⟨a, n, l⟩).2 hst] at hp
      cases hp

/-- C106: one request.  If it is shorter than 2^31 bytes, and so are the names and strings that the context holds, and the containers have fewer than
2^31 elements, then executing it, with the indices of the C++, has the result of the model without indices; no access is outside of a string or a vector,
no index overflows, no exception leaves, and every loop ends.  Unless the stack is too small: then it overflows. -/
theorem C106_request [StdSort] (hc : Reachable c) (small : ∀ n i, Holds c n i → n.length < 2147483648 ∧ ∀ z ∈ sizesOf i, z < 2147483648)
    (pwd : Str) (s : Option Session) {text : Str} (short : text.length < 2147483648) (stack : Nat) :
    Idx.execute stack pwd c s text = if (parseD text).2.1 ≤ stack then plain (execute pwd c s text) else .stack := by
  have hi := reachable_inv hc
  split
  · rename_i h
    exact execute_eq pwd hi (fitsCtx_of hi small) s short h
  · rename_i h
    exact execute_stack pwd c s short (by omega)

theorem idx_run [StdSort] (hc : Reachable c) {stack : Nat} : ∀ (es₂ es₁ : List Event) (s : Server), run (Server.init pwd c) es₁ = some (.done s) →
    (∀ es' s', es' <+: es₁ ++ es₂ → run (Server.init pwd c) es' = some (.done s') → Small stack s') → Idx.run stack s es₂ = (run s es₂).map plain
  | [], es₁, s, _, _ => rfl
  | e :: es₂, es₁, s, h, hb => by
    have hsm := hb es₁ s (List.prefix_append _ _) h
    have hi := reachable_inv (run_reachable hc h)
    have hst := step_eq hi (fitsCtx_of hi hsm.data) (stack := stack) hsm.lines e
    rw [Idx.run, hst]
    rw [run]
    cases hs : step s e with
    | none => rfl
    | some o =>
      cases o with
      | ub => rfl
      | done s' =>
        refine idx_run hc es₂ (es₁ ++ [e]) s' ?_ ?_
        · rw [run_append, h]
          show run s [e] = _
          rw [run, hs]
          rfl
        · rw [List.append_assoc]; exact hb

/-- C106: the server, from its start, over every history of connections, bytes, requests and replies, however long, in which what it holds is always
smaller than 2^31 (each name, each string, each container, the bytes of each connection that have not been read), and the stack has room for one call for
each four of these bytes: with the indices of the C++ it does exactly what the model without indices does. -/
theorem C106_server_while_small [StdSort] (hc : Reachable c) {stack : Nat}
    (small : ∀ es' s, es' <+: es → run (Server.init pwd c) es' = some (.done s) → Small stack s) :
    Idx.run stack (Server.init pwd c) es = (run (Server.init pwd c) es).map plain :=
  idx_run hc es [] _ rfl small

theorem arrived_app (a b : List Event) : arrived (a ++ b) = arrived a + arrived b := by
  induction a with
  | nil => simp [arrived]
  | cons x a ih => cases x <;> simp [arrived, ih, Nat.add_assoc]

/-- C106: in particular if fewer than 2^31 bytes arrive in total. -/
theorem C106_server [StdSort] (hc : Reachable c) (h0 : c.vars = []) (few : arrived es < 2147483648) {stack : Nat} (room : arrived es / 4 + 1 ≤ stack) :
    Idx.run stack (Server.init pwd c) es = (run (Server.init pwd c) es).map plain := by
  refine C106_server_while_small hc fun es' s hp h => ?_
  obtain ⟨h1, h2⟩ := C70_sizes hc h0 h
  obtain ⟨t, rfl⟩ := hp
  have hle : arrived es' ≤ arrived (es' ++ t) := by rw [arrived_app]; omega
  exact ⟨fun n i hn => ⟨by have := (h1 n i hn).1; omega, fun z hz => by have := (h1 n i hn).2 z hz; omega⟩,
    fun k hk => by have := h2 k hk; exact ⟨by omega, by omega⟩⟩

/-- C106: so in such a history nothing goes wrong that does not go wrong in the model without indices. -/
theorem C106_nothing_else_goes_wrong [StdSort] (hc : Reachable c) (h0 : c.vars = []) (few : arrived es < 2147483648) {stack : Nat}
    (room : arrived es / 4 + 1 ≤ stack) {x : Ix Server} (h : Idx.run stack (Server.init pwd c) es = some x) :
    (∃ s, x = .ok s ∧ run (Server.init pwd c) es = some (.done s)) ∨ (x = .ub ∧ run (Server.init pwd c) es = some .ub) := by
  rw [C106_server hc h0 few room] at h
  cases hr : run (Server.init pwd c) es with
  | none => rw [hr] at h; cases h
  | some o =>
    rw [hr] at h
    cases o with
    | done s => cases h; exact Or.inl ⟨s, rfl, rfl⟩
    | ub => cases h; exact Or.inr ⟨rfl, rfl⟩

theorem idx_stranger [StdSort] {s : Server} (ha : s.accepting = true) {line : Str} (hn : (10 : Byte) ∉ line) (stack : Nat) :
    ∃ s' k, s'.ctx = s.ctx ∧ Idx.run stack s [.accept, .recv s.conns.length (line ++ [10]), .read s.conns.length] =
      some (Idx.handleLine stack s' s.conns.length k line []) := by
  have hsp : splitLine (line ++ [10]) = some (line, []) := by
    clear ha
    induction line with
    | nil => rfl
    | cons b bs ih =>
      simp only [List.mem_cons, not_or] at hn
      rw [List.cons_append, splitLine, ih hn.2, if_neg fun h => hn.1 (eq_of_beq h).symm]
      rfl
  refine ⟨{ s with conns := s.conns ++ [{ Conn.init s.pwd with inbuf := line ++ [10] }] }, { Conn.init s.pwd with inbuf := line ++ [10] }, rfl, ?_⟩
  have h1 : Idx.step stack s .accept = some (.ok { s with conns := s.conns ++ [Conn.init s.pwd] }) := by
    show (Knuckle.step s .accept).map plain = _
    simp [step, ha, plain]
  have h2 : Idx.step stack { s with conns := s.conns ++ [Conn.init s.pwd] } (.recv s.conns.length (line ++ [10])) =
      some (.ok { s with conns := s.conns ++ [{ Conn.init s.pwd with inbuf := line ++ [10] }] }) := by
    show (Knuckle.step _ _).map plain = _
    simp [step, plain, Conn.init]
  have h3 : Idx.step stack { s with conns := s.conns ++ [{ Conn.init s.pwd with inbuf := line ++ [10] }] } (.read s.conns.length) =
      some (Idx.handleLine stack { s with conns := s.conns ++ [{ Conn.init s.pwd with inbuf := line ++ [10] }] } s.conns.length
        { Conn.init s.pwd with inbuf := line ++ [10] } line []) := by
    simp [Idx.step, Conn.init, hsp]
  rw [Idx.run, h1]
  simp only []
  rw [Idx.run, h2]
  simp only []
  rw [Idx.run, h3]
  cases Idx.handleLine stack { s with conns := s.conns ++ [{ Conn.init s.pwd with inbuf := line ++ [10] }] } s.conns.length
        { Conn.init s.pwd with inbuf := line ++ [10] } line [] <;> rfl

/-- C106: with a smaller stack, and with a longer line, it does go wrong, also for clients that have not authenticated: however much room the stack has,
there is a line five times as long that makes it overflow, … -/
theorem C106_strangers_overflow_the_stack [StdSort] {s : Server} (ha : s.accepting = true) {stack : Nat} (h : 5 * stack + 4 < 2147483648) :
    ∃ line, line.length = 5 * stack + 4 ∧
      Idx.run stack s [.accept, .recv s.conns.length (line ++ [10]), .read s.conns.length] = some .stack := by
  refine ⟨hostileText stack, hostileText_length stack, ?_⟩
  obtain ⟨s', k, _, hs⟩ := idx_stranger ha (hostileText_no_newline stack) stack
  rw [hs, handleLine_stack s' _ k (show (hostileText stack).length < 2147483648 by rw [hostileText_length]; exact h) (hostileText_depth stack).1]

/-- C106: … and every line of 2^31 bytes or more (but less than 2^32), whatever it says, makes the parser access something outside of it, or overflow. -/
theorem C106_strangers_send_long_lines [StdSort] {s : Server} (ha : s.accepting = true) {line : Str} (hn : (10 : Byte) ∉ line)
    (long : 2147483648 ≤ line.length) (below : line.length < 4294967296) (stack : Nat) :
    Idx.run stack s [.accept, .recv s.conns.length (line ++ [10]), .read s.conns.length] = some .ub := by
  obtain ⟨s', k, _, hs⟩ := idx_stranger ha hn stack
  rw [hs, handleLine_long s' _ k stack long below]

/-! A history of two clients, a stack that is too small, a line that is too long. -/

example [StdSort] : Idx.run 35 (Server.init b!"pw" fresh) demoEvents = some (.ok demoServer) := by
  rw [C106_server fresh_reachable rfl (by decide +kernel) (by decide +kernel), demo_run]
  rfl

theorem demo_small : ∀ n i, Holds demo n i → n.length < 2147483648 ∧ ∀ z ∈ sizesOf i, z < 2147483648 := by
  have h : ∀ v ∈ demo.vars, v.1.length < 2147483648 ∧ ∀ z ∈ sizesOf v.2, z < 2147483648 := by decide +kernel
  intro n i hn
  exact h (n, i) (lookup_some_mem hn)

example [StdSort] : Idx.execute 1 [] demo none b!"v size;" = .ok (demo, none, b!"3") := by
  rw [C106_request demo_reachable demo_small [] none (by decide) 1, if_pos (by decide +kernel)]
  kernel_rfl

example [StdSort] : Idx.execute 0 [] demo none b!"v at: 1;" = .stack := by
  rw [C106_request demo_reachable demo_small [] none (by decide) 0, if_neg (by decide +kernel)]

example [StdSort] : (∃ line, line.length = 5004 ∧ Idx.run 1000 (Server.init b!"pw" fresh) [.accept, .recv 0 (line ++ [10]), .read 0] = some .stack) :=
  C106_strangers_overflow_the_stack (s := Server.init b!"pw" fresh) (stack := 1000) rfl (by decide)

example [StdSort] (stack : Nat) : Idx.run stack (Server.init b!"pw" fresh) [.accept, .recv 0 (List.replicate 3000000000 97 ++ [10]), .read 0] = some .ub :=
  C106_strangers_send_long_lines (s := Server.init b!"pw" fresh) rfl (by intro h; cases List.eq_of_mem_replicate h)
    (by rw [List.length_replicate]; decide) (by rw [List.length_replicate]; decide) stack

end Knuckle.Props
