/-
C70: sizes fit in 32 bits; C71: the depth of the parser's recursion.
-/
import Verif.Spec.Sizes
import Verif.Proofs.Depth
import Verif.Proofs.Log
import Verif.Props.Storage
import Verif.Props.Server

namespace Knuckle.Props

open Spec

variable {pwd : Str} {c : Ctx} {es : List Event} {s : Server} {log : List Request}

/-! ### C70 -/

theorem le_sum_of_mem {l : List Nat} {x : Nat} (h : x ∈ l) : x ≤ l.sum := by
  induction l with
  | nil => cases h
  | cons a l ih =>
    rw [List.sum_cons]
    rcases List.mem_cons.1 h with rfl | h
    · omega
    · have := ih h; omega

theorem received_total (es : List Event) (n : Nat) : ((List.range n).map fun i => (received i es).length).sum ≤ arrived es := by
  induction es with
  | nil => simp [received]
  | cons e es ih =>
    cases e with
    | recv j bytes =>
      have key : ∀ n, ((List.range n).map fun i => (received i (.recv j bytes :: es)).length).sum ≤
          ((List.range n).map fun i => (received i es).length).sum + if j < n then bytes.length else 0 := by
        intro n
        induction n with
        | zero => simp
        | succ n ih =>
          simp only [List.range_succ, List.map_append, List.map_cons, List.map_nil, List.sum_append, List.sum_cons, List.sum_nil] at ih ⊢
          have e : (received n (.recv j bytes :: es)).length = (received n es).length + if j = n then bytes.length else 0 := by
            simp only [received]
            split
            · rw [List.length_append]; omega
            · rfl
          rw [e]
          by_cases h1 : j = n
          · subst h1
            simp only [Nat.lt_irrefl, if_false, if_true, Nat.lt_succ_self] at ih ⊢; omega
          · by_cases h2 : j < n
            · rw [if_pos h2] at ih; rw [if_neg h1, if_pos (by omega)]; omega
            · rw [if_neg h2] at ih; rw [if_neg h1, if_neg (by omega)]; omega
      have := key n
      simp only [arrived]
      split at this <;> omega
    | _ => exact ih

theorem wire_total (log : List Request) (n : Nat) (h : ∀ q ∈ log, q.conn < n) :
    (log.map fun q => q.line.length + 1).sum =
      ((List.range n).map fun i => (wire ((requestsOf i log).map Request.line)).length).sum := by
  induction log with
  | nil => simp [requestsOf, wire]
  | cons q log ih =>
    rw [List.map_cons, List.sum_cons, ih fun x hx => h x (by simp [hx])]
    have hq := h q (by simp)
    have key : ∀ n, ((List.range n).map fun i => (wire ((requestsOf i (q :: log)).map Request.line)).length).sum =
        ((List.range n).map fun i => (wire ((requestsOf i log).map Request.line)).length).sum + if q.conn < n then q.line.length + 1 else 0 := by
      intro n
      induction n with
      | zero => simp
      | succ n ih =>
        simp only [List.range_succ, List.map_append, List.map_cons, List.map_nil, List.sum_append, List.sum_cons, List.sum_nil] at ih ⊢
        have e : (wire ((requestsOf n (q :: log)).map Request.line)).length =
            (wire ((requestsOf n log).map Request.line)).length + if q.conn = n then q.line.length + 1 else 0 := by
          by_cases hc : q.conn = n
          · simp only [requestsOf, List.filter_cons, hc, beq_self_eq_true, if_true, List.map_cons, wire, List.flatten_cons,
              List.length_append, List.length_cons, List.length_nil]
            omega
          · simp only [requestsOf, List.filter_cons, beq_false_of_ne hc, Bool.false_eq_true, if_false, hc, Nat.add_zero]
        rw [e]
        by_cases h1 : q.conn = n
        · rw [if_pos h1, if_pos (by omega)]; rw [if_neg (by omega)] at ih; omega
        · by_cases h2 : q.conn < n
          · rw [if_pos h2] at ih; rw [if_neg h1, if_pos (by omega)]; omega
          · rw [if_neg h2] at ih; rw [if_neg h1, if_neg (by omega)]; omega
    rw [key n, if_pos hq]; omega

theorem serial_sublist [StdSort] {c' : Ctx} (h : Serial pwd c log c') :
    ∃ x, History c x c' ∧ (x.map (·.1)).Sublist (log.map Request.line) := by
  induction h with
  | nil => exact ⟨[], .nil, by simp⟩
  | @executed log _ _ i line reply _ _ _ _ _ _ he ih =>
    obtain ⟨x, h1, h2⟩ := ih
    refine ⟨_, Knuckle.history_snoc h1 he, ?_⟩
    rw [List.map_append, List.map_append]
    exact h2.append (List.Sublist.refl _)
  | @ignored log _ i line _ _ _ hn ih =>
    obtain ⟨x, h1, h2⟩ := ih
    refine ⟨x, h1, ?_⟩
    rw [List.map_append]
    exact h2.trans (List.sublist_append_left _ _)

theorem sublist_sum {l l' : List Str} (h : l.Sublist l') : l.length + (l.map List.length).sum ≤ (l'.map fun x => x.length + 1).sum := by
  induction h with
  | slnil => simp
  | cons a _ ih => simp only [List.map_cons, List.sum_cons]; omega
  | cons_cons a _ ih => simp only [List.map_cons, List.sum_cons, List.length_cons]; omega

theorem log_total [StdSort] (h : Explains pwd c es s log) : (log.map fun q => q.line.length + 1).sum ≤ arrived es := by
  rw [wire_total log s.conns.length h.known]
  refine le_trans ?_ (received_total es s.conns.length)
  have : ∀ n, n ≤ s.conns.length → ((List.range n).map fun i => (wire ((requestsOf i log).map Request.line)).length).sum ≤
      ((List.range n).map fun i => (received i es).length).sum := by
    intro n hn
    induction n with
    | zero => simp
    | succ n ih =>
      simp only [List.range_succ, List.map_append, List.map_cons, List.map_nil, List.sum_append, List.sum_cons, List.sum_nil]
      have h1 := ih (by omega)
      have h2 := h.input n s.conns[n] (List.getElem?_eq_getElem (by omega))
      rw [h2, List.length_append]; omega
  exact this _ (le_refl _)

/-- C70: in a server that was started empty, nothing is ever larger than the number of bytes that have arrived: not the
names, the strings and the containers it stores, nor what waits in the buffer of a connection. -/
theorem C70_sizes [StdSort] (hc : Reachable c) (h0 : c.vars = []) (h : run (Server.init pwd c) es = some (.done s)) :
    (∀ n i, Holds s.ctx n i → n.length ≤ arrived es ∧ ∀ z ∈ sizesOf i, z ≤ arrived es) ∧
      ∀ k ∈ s.conns, k.inbuf.length ≤ arrived es := by
  obtain ⟨log, hl⟩ := C44_serialized hc h
  obtain ⟨x, hx, hs⟩ := serial_sublist hl.serial
  have h1 := log_total hl
  have h2 := sublist_sum hs
  rw [List.map_map] at h2
  simp only [List.map_map, List.length_map] at h2
  have h3 : x.length + sentBytes x ≤ arrived es := le_trans h2 h1
  have h4 := C59_texts hc h0 hx
  have h5 := history_cells hc hx
  have h6 : cells c = 0 := by unfold cells; rw [h0]; rfl
  refine ⟨fun n i hn => ?_, fun k hk => ?_⟩
  · have hm := lookup_some_mem hn
    have ht : ∀ t ∈ n :: textsOf i, t.length ≤ arrived es := by
      intro t ht
      have := h4 t (List.mem_flatMap.2 ⟨_, hm, ht⟩)
      omega
    refine ⟨ht n (by simp), fun z hz => ?_⟩
    rcases List.mem_cons.1 hz with rfl | hz
    · have : cellsOf i ≤ cells s.ctx := by
        unfold cells
        exact le_sum_of_mem (List.mem_map.2 ⟨_, hm, rfl⟩)
      omega
    · obtain ⟨t, ht', rfl⟩ := List.mem_map.1 hz
      exact ht t (by simp [ht'])
  · obtain ⟨i, hi, rfl⟩ := List.mem_iff_getElem.1 hk
    have h7 := hl.input i _ (List.getElem?_eq_getElem hi)
    have h8 := received_total es (i + 1)
    simp only [List.range_succ, List.map_append, List.map_cons, List.map_nil, List.sum_append, List.sum_cons, List.sum_nil] at h8
    rw [h7, List.length_append] at h8
    omega

/-- C70: so every size the program converts to `int` is converted without loss as long as fewer than 2^31 bytes have arrived. -/
theorem C70_sizes_fit [StdSort] (hc : Reachable c) (h0 : c.vars = []) (h : run (Server.init pwd c) es = some (.done s))
    (hb : arrived es < 2 ^ 31) :
    (∀ n i, Holds s.ctx n i → IsInt32 n.length ∧ ∀ z ∈ sizesOf i, IsInt32 z) ∧ ∀ k ∈ s.conns, IsInt32 k.inbuf.length := by
  obtain ⟨h1, h2⟩ := C70_sizes hc h0 h
  have fit : ∀ z : Nat, z ≤ arrived es → IsInt32 z := fun z hz => by unfold IsInt32; omega
  exact ⟨fun n i hn => ⟨fit _ (h1 n i hn).1, fun z hz => fit _ ((h1 n i hn).2 z hz)⟩, fun k hk => fit _ (h2 k hk)⟩

example [StdSort] : Reachable fresh ∧ fresh.vars = [] ∧ run (Server.init b!"pw" fresh) demoEvents = some (.done demoServer) ∧
    arrived demoEvents = 137 ∧ demoServer.ctx.vars ≠ [] ∧ sizesOf (.string b!"abc") = [0, 3] ∧ ∃ k ∈ demoServer.conns, k.inbuf.length = 4 :=
  ⟨fresh_reachable, rfl, demo_run, by decide +kernel, by simp [demoServer], by decide +kernel, _, List.mem_cons_self, rfl⟩

/-- C70: this bound is reached by clients that have not authenticated: whenever the server accepts connections, a new client can make it hold
any number of bytes, by sending a line and never ending it.  Whatever happens at other connections, the bytes stay, and the line is never
looked at (there is neither a limit nor a timeout). -/
theorem C70_strangers_reach_it [StdSort] (ha : s.accepting = true) (hp : s.pwd ≠ []) (n : Nat) :
    ∃ bytes s', bytes.length = n ∧ run s [.accept, .recv s.conns.length bytes] = some (.done s') ∧ s'.ctx = s.ctx ∧
      ∀ es' s'', (∀ e ∈ es', NotAbout s.conns.length e) → run s' es' = some (.done s'') →
        ∃ k, s''.conns[s.conns.length]? = some k ∧ k.sess.authed = false ∧ k.inbuf = bytes ∧ step s'' (.read s.conns.length) = none := by
  have hno : ∀ n : Nat, splitLine (List.replicate n (97 : Byte)) = none := by
    intro n
    induction n with
    | zero => rfl
    | succ n ih => rw [List.replicate_succ]; simp only [splitLine, ih]; rfl
  refine ⟨List.replicate n 97, { s with conns := s.conns ++ [{ Conn.init s.pwd with inbuf := List.replicate n 97 }] }, by simp, ?_, rfl, ?_⟩
  · simp [run, step, ha, Conn.init]
  · intro es' s'' hn hr
    have hk := C48_others_cannot_interfere (k := { Conn.init s.pwd with inbuf := List.replicate n 97 }) (by simp) hn hr
    refine ⟨_, hk, ?_, rfl, ?_⟩
    · simp [Conn.init, Session.init, hp]
    · simp only [step, hk, Conn.init, if_true, hno]

example [StdSort] : (Server.init b!"pw" fresh).accepting = true ∧ (Server.init b!"pw" fresh).pwd ≠ [] := by decide

/-! ### C71 -/

/-- C71: the tracked parser returns the same as the parser. -/
theorem C71_same_parser (text : Str) : (parseD text).1 = parse text := parseD_fst text

/-- C71: on a text of `n` bytes at most `n / 4 + 1` calls are active at the same time, which hold texts of at most
`(n / 4 + 1) * n` bytes. -/
theorem C71_at_most (text : Str) : (parseD text).2.1 ≤ text.length / 4 + 1 ∧ (parseD text).2.2 ≤ (text.length / 4 + 1) * text.length :=
  parseD_le text

/-- C71: this is the right order: there are lines of `5 m + 4` bytes that are refused, after more than `m` calls have been
active at the same time, which held more than `2 m²` bytes. -/
theorem C71_is_reached (m : Nat) : ∃ text, text.length = 5 * m + 4 ∧ (10 : Byte) ∉ text ∧ parse text = .err .invalidStatement ∧
    m < (parseD text).2.1 ∧ 2 * (m * m) ≤ (parseD text).2.2 :=
  ⟨hostileText m, hostileText_length m, hostileText_no_newline m, hostileText_invalid m, (hostileText_depth m).1,
    (hostileBytes_ge m).trans (hostileText_depth m).2⟩

/-- 5004 bytes: more than a thousand active calls, which hold two megabytes. -/
example : ∃ text, text.length = 5004 ∧ (10 : Byte) ∉ text ∧ parse text = .err .invalidStatement ∧ 1000 < (parseD text).2.1 ∧
    2000000 ≤ (parseD text).2.2 := C71_is_reached 1000

end Knuckle.Props
