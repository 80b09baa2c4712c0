/-
The event loop refines the serial execution of requests.
-/
import Verif.Spec.Server
import Verif.Proofs.Replies
import Verif.Proofs.Errors
import Verif.Proofs.Context

namespace Knuckle

open Spec

/-! ### Lines -/

theorem splitLine_some {b l r : Str} (h : splitLine b = some (l, r)) : b = l ++ 10 :: r ∧ (10 : Byte) ∉ l := by
  induction b generalizing l with
  | nil => cases h
  | cons c cs ih =>
    unfold splitLine at h
    split at h
    · rename_i hc
      cases h
      rw [eq_of_beq hc]; exact ⟨rfl, by simp⟩
    · rename_i hc
      cases hs : splitLine cs with
      | none => rw [hs] at h; cases h
      | some p =>
        obtain ⟨l', r'⟩ := p
        rw [hs] at h
        cases h
        obtain ⟨e, hn⟩ := ih hs
        refine ⟨by rw [e]; rfl, ?_⟩
        intro hm
        rcases List.mem_cons.1 hm with rfl | hm
        · exact hc rfl
        · exact hn hm

theorem splitLine_none {b : Str} : splitLine b = none ↔ (10 : Byte) ∉ b := by
  induction b with
  | nil => simp [splitLine]
  | cons c cs ih =>
    unfold splitLine
    split
    · rename_i hc; simp [eq_of_beq hc]
    · rename_i hc
      simp only [Option.map_eq_none_iff, ih, List.mem_cons, not_or]
      exact ⟨fun h => ⟨fun e => hc (by simp [← e]), h⟩, fun h => h.2⟩

theorem splitLine_append (l r : Str) (h : (10 : Byte) ∉ l) : splitLine (l ++ 10 :: r) = some (l, r) := by
  induction l with
  | nil => simp [splitLine]
  | cons c cs ih =>
    have hc : (c == 10) = false := beq_false_of_ne fun e => h (by simp [e])
    simp only [List.cons_append, splitLine, hc, Bool.false_eq_true, if_false]
    rw [ih fun hm => h (List.mem_cons_of_mem _ hm)]; rfl

theorem wire_append (a b : List Str) : wire (a ++ b) = wire a ++ wire b := by simp [wire]

theorem wire_single (l : Str) : wire [l] = l ++ [10] := by simp [wire]

theorem received_append (i : Nat) (a b : List Event) : received i (a ++ b) = received i a ++ received i b := by
  induction a with
  | nil => rfl
  | cons e es ih =>
    cases e <;> simp only [List.cons_append, received, ih]
    split <;> simp

theorem requestsOf_append (i : Nat) (a b : List Request) : requestsOf i (a ++ b) = requestsOf i a ++ requestsOf i b := by
  simp [requestsOf]

theorem requestsOf_self (q : Request) : requestsOf q.conn [q] = [q] := by simp [requestsOf]

theorem requestsOf_other {i : Nat} {q : Request} (h : q.conn ≠ i) : requestsOf i [q] = [] := by simp [requestsOf, h]

/-! ### Runs -/

theorem run_append [StdSort] (s : Server) (a b : List Event) : run s (a ++ b) = match run s a with
    | none => none
    | some .ub => some .ub
    | some (.done s') => run s' b := by
  induction a generalizing s with
  | nil => rfl
  | cons e es ih =>
    simp only [List.cons_append, run]
    cases step s e with
    | none => rfl
    | some o => cases o with
      | ub => rfl
      | done s' => exact ih s'

theorem run_single [StdSort] (s : Server) (e : Event) : run s [e] = step s e := by
  simp only [run]
  cases step s e with
  | none => rfl
  | some o => cases o <;> rfl

/-! ### Sessions -/

theorem authenticated_snoc {pwd : Str} {log : List Request} {q : Request} {i : Nat} :
    Authenticated pwd (log ++ [q]) i ↔ Authenticated pwd log i ∨ (q.conn = i ∧ Presents pwd q.line) := by
  unfold Authenticated
  constructor
  · rintro (h | ⟨x, hx, h1, h2⟩)
    · exact .inl (.inl h)
    · rcases List.mem_append.1 hx with hx | hx
      · exact .inl (.inr ⟨x, hx, h1, h2⟩)
      · rw [List.mem_singleton.1 hx] at h1 h2; exact .inr ⟨h1, h2⟩
  · rintro ((h | ⟨x, hx, h⟩) | h)
    · exact .inl h
    · exact .inr ⟨x, by simp [hx], h⟩
    · exact .inr ⟨q, by simp, h⟩

theorem closed_snoc {log : List Request} {q : Request} {i : Nat} :
    Closed (log ++ [q]) i ↔ Closed log i ∨ (q.conn = i ∧ Closes q.line) := by
  unfold Closed
  constructor
  · rintro ⟨x, hx, h1, h2⟩
    rcases List.mem_append.1 hx with hx | hx
    · exact .inl ⟨x, hx, h1, h2⟩
    · rw [List.mem_singleton.1 hx] at h1 h2; exact .inr ⟨h1, h2⟩
  · rintro (⟨x, hx, h⟩ | h)
    · exact ⟨x, by simp [hx], h⟩
    · exact ⟨q, by simp, h⟩

/-- A line is read in at most one way. -/
theorem statement_same {t a n a' n' : Str} {l l' : List Str} (h : Statement t a n l) (h' : Statement t a' n' l') :
    a = a' ∧ n = n' ∧ l = l' := by
  have e1 := (parse_iff _ ⟨a, n, l⟩).2 h
  have e2 := (parse_iff _ ⟨a', n', l'⟩).2 h'
  rw [e1] at e2; cases e2; exact ⟨rfl, rfl, rfl⟩

theorem actor_connection_not_type : ¬ IsType b!"Connection" := by
  rw [← isType_iff]; decide

theorem actor_connection_not_variable : ¬ Variable b!"Connection" := by
  rw [← isVariable_iff]; decide

/-- What executing a request does to the session. -/
theorem execute_session [StdSort] {pwd : Str} {c c' : Ctx} (hc : Inv c) {s : Session} {s' : Option Session} {line r : Str}
    (h : execute pwd c (some s) line = .done (c', s', r)) :
    ∃ t, s' = some t ∧ (t.authed = true ↔ s.authed = true ∨ Presents pwd line) ∧ (t.connected = true ↔ s.connected = true ∧ ¬ Closes line) := by
  have notConn : ¬ ToConnection line → ¬ Presents pwd line ∧ ¬ Closes line := fun hn =>
    ⟨fun ⟨a, ha, _⟩ => hn ⟨_, _, ha⟩, fun h => hn ⟨_, _, h⟩⟩
  have keep : ¬ ToConnection line → ∃ t, some s = some t ∧ (t.authed = true ↔ s.authed = true ∨ Presents pwd line) ∧
      (t.connected = true ↔ s.connected = true ∧ ¬ Closes line) := fun hn =>
    ⟨s, rfl, by simp [(notConn hn).1], by simp [(notConn hn).2]⟩
  have other : ∀ {a n l}, Statement line a n l → a ≠ b!"Connection" → ¬ ToConnection line := by
    rintro a n l hs hne ⟨n', l', hs'⟩; exact hne (statement_same hs hs').1
  have onConn : ∀ {n l}, Statement line b!"Connection" n l → n ≠ b!"close" → (n = b!"authenticateWithPassword:" → ∀ a, l = [a] → ¬ StringLiteral a pwd) →
      ∃ t, some s = some t ∧ (t.authed = true ↔ s.authed = true ∨ Presents pwd line) ∧
      (t.connected = true ↔ s.connected = true ∧ ¬ Closes line) := by
    intro n l hs h1 h2
    have e1 : ¬ Presents pwd line := by
      rintro ⟨a, ha, hl⟩
      obtain ⟨_, e, e'⟩ := statement_same hs ha
      exact h2 e a e' hl
    have e2 : ¬ Closes line := fun hcl => h1 (statement_same hs hcl).2.1
    exact ⟨s, rfl, by simp [e1], by simp [e2]⟩
  have strLit_unique : ∀ {a v w : Str}, StringLiteral a v → StringLiteral a w → v = w := by
    intro a v w h1 h2
    have := denotes_unique (.string h1) (.string h2)
    injection this
  obtain ⟨x, rfl, hd | ⟨e, hd, rfl⟩⟩ := execute_done hc h
  · generalize hy : Run.ret (x, s') r = y at hd
    cases hd with
    | created hs ht => cases hy; exact keep (other hs fun e => actor_connection_not_type (e ▸ ht))
    | kept hs ht => cases hy; exact keep (other hs fun e => actor_connection_not_type (e ▸ ht))
    | @context m l w hs h => cases h <;> cases hy <;> exact keep (other hs (by decide))
    | varGives hs hv => cases hy; exact keep (other hs fun e => actor_connection_not_variable (e ▸ hv))
    | @connection n l z w hs hs' h =>
      cases hs'
      cases h with
      | close =>
        cases hy
        refine ⟨_, rfl, ?_, ?_⟩
        · have e1 : ¬ Presents pwd line := by
            rintro ⟨a, ha, _⟩
            exact absurd (statement_same hs ha).2.1 (by decide)
          simp [e1]
        · have : l = [] := by
            obtain ⟨w₁, c, w₂, msg, w₃, w₄, _, _, _, _, _, hm, _, _⟩ := hs
            rcases hm with ⟨_, _, e⟩ | hk
            · exact e
            · exfalso
              have key : ∀ {t n l}, KeywordMessage t n l → ∃ i y, Identifier i ∧ (n = i ++ c!":" :: y ∨ n = i ++ c!"?" :: y) := by
                intro t n l hk
                cases hk with
                | one h1 =>
                  obtain ⟨i, hi, e | e⟩ := h1
                  · exact ⟨i, [], hi, .inl e⟩
                  · exact ⟨i, [], hi, .inr e⟩
                | more h1 =>
                  obtain ⟨i, hi, e | e⟩ := h1
                  · exact ⟨i, _, hi, .inl (by rw [e]; simp; rfl)⟩
                  · exact ⟨i, _, hi, .inr (by rw [e]; simp; rfl)⟩
              obtain ⟨i, y, _, e | e⟩ := key hk
              · have : c!":" ∈ b!"close" := by rw [e]; simp
                revert this; decide
              · have : c!"?" ∈ b!"close" := by rw [e]; simp
                revert this; decide
          subst this
          simp only [Bool.false_eq_true, false_iff, not_and, not_not]
          exact fun _ => hs
      | auth hl =>
        cases hy
        refine ⟨_, rfl, ?_, ?_⟩
        · simp only [true_iff]; exact .inr ⟨_, hs, hl⟩
        · have e2 : ¬ Closes line := fun hcl => absurd (statement_same hs hcl).2.1 (by decide)
          simp [e2]
      | _ => cases hy
    | _ => cases hy
  · obtain ⟨rfl, rfl⟩ := does_thr hd
    by_cases hcn : ToConnection line
    · obtain ⟨n, l, hs⟩ := hcn
      generalize hy : Run.thr (x, some s) e = y at hd
      cases hd with
      | syntaxError hn => exact absurd ⟨_, _, _, hs⟩ hn
      | @connection n' l' z w hs' hz h =>
        cases hz
        obtain ⟨_, rfl, rfl⟩ := statement_same hs hs'
        cases h with
        | wrong hl hne =>
          refine onConn hs (by decide) ?_
          rintro _ a e hl'
          cases e
          exact hne (strLit_unique hl hl')
        | invalid hnl =>
          refine onConn hs (by decide) ?_
          rintro _ a e ⟨b, e1, hb, _⟩
          cases e
          exact hnl ⟨b, e1, hb⟩
        | wrongNumber hlen =>
          refine onConn hs (by decide) ?_
          rintro _ a rfl _
          exact hlen rfl
        | noMessage h1 h2 => exact onConn hs h1 fun e => absurd e h2
        | _ => cases hy
      | typeNoMessage h1 h2 => exact absurd h2 ((statement_same hs h1).1 ▸ actor_connection_not_type)
      | typeWrongNumber h1 h2 => exact absurd h2 ((statement_same hs h1).1 ▸ actor_connection_not_type)
      | typeInvalid h1 h2 => exact absurd h2 ((statement_same hs h1).1 ▸ actor_connection_not_type)
      | used h1 h2 => exact absurd h2 ((statement_same hs h1).1 ▸ actor_connection_not_type)
      | absent h1 h2 => exact absurd h2 ((statement_same hs h1).1 ▸ actor_connection_not_variable)
      | varNoMessage h1 h2 => exact absurd h2 ((statement_same hs h1).1 ▸ actor_connection_not_variable)
      | varWrongNumber h1 h2 => exact absurd h2 ((statement_same hs h1).1 ▸ actor_connection_not_variable)
      | varInvalid h1 h2 => exact absurd h2 ((statement_same hs h1).1 ▸ actor_connection_not_variable)
      | varRefuses h1 h2 => exact absurd h2 ((statement_same hs h1).1 ▸ actor_connection_not_variable)
      | context h1 h2 => exact absurd (statement_same hs h1).1 (by decide)
      | _ => cases hy
    · exact keep hcn

/-! ### The invariant -/

theorem authenticated_other {pwd : Str} {log log' : List Request} {i : Nat} (h : ∀ q ∈ log', q.conn ≠ i) :
    Authenticated pwd (log ++ log') i ↔ Authenticated pwd log i := by
  unfold Authenticated
  constructor
  · rintro (h1 | ⟨q, hq, h1, h2⟩)
    · exact .inl h1
    · rcases List.mem_append.1 hq with hq | hq
      · exact .inr ⟨q, hq, h1, h2⟩
      · exact absurd h1 (h q hq)
  · rintro (h1 | ⟨q, hq, h1⟩)
    · exact .inl h1
    · exact .inr ⟨q, by simp [hq], h1⟩

theorem closed_other {log log' : List Request} {i : Nat} (h : ∀ q ∈ log', q.conn ≠ i) :
    Closed (log ++ log') i ↔ Closed log i := by
  unfold Closed
  constructor
  · rintro ⟨q, hq, h1, h2⟩
    rcases List.mem_append.1 hq with hq | hq
    · exact ⟨q, hq, h1, h2⟩
    · exact absurd h1 (h q hq)
  · rintro ⟨q, hq, h1⟩; exact ⟨q, by simp [hq], h1⟩

theorem requestsOf_others {log log' : List Request} {i : Nat} (h : ∀ q ∈ log', q.conn ≠ i) :
    requestsOf i (log ++ log') = requestsOf i log := by
  rw [requestsOf_append]
  have : requestsOf i log' = [] := by
    unfold requestsOf; rw [List.filter_eq_nil_iff]; intro q hq; simpa using h q hq
  rw [this, List.append_nil]

/-- The event is about connection `j`. -/
inductive EventOf (j : Nat) : Event → Prop
  | recv (b : Str) : EventOf j (.recv j b)
  | read : EventOf j (.read j)
  | readErr : EventOf j (.readErr j)
  | wrote : EventOf j (.wrote j)
  | wroteShort : EventOf j (.wroteShort j)
  | writeErr : EventOf j (.writeErr j)

theorem eventOf_other {i j : Nat} {e : Event} (h : EventOf j e) (hij : i ≠ j) (es : List Event) :
    received i (es ++ [e]) = received i es ∧ (.readErr i ∈ es ++ [e] ↔ .readErr i ∈ es) ∧ (.writeErr i ∈ es ++ [e] ↔ .writeErr i ∈ es) := by
  have hji : j ≠ i := Ne.symm hij
  cases h <;> simp [received_append, received, hij, hji]

theorem eventOf_accept {j : Nat} {e : Event} (h : EventOf j e) (es : List Event) : .acceptErr ∉ es ++ [e] ↔ .acceptErr ∉ es := by
  cases h <;> simp

theorem explains_set [StdSort] {pwd : Str} {c : Ctx} {es : List Event} {s : Server} {log : List Request} (h : Explains pwd c es s log)
    {j : Nat} {k k' : Conn} (hj : s.conns[j]? = some k) {e : Event} (he : EventOf j e) {log' : List Request} {c' : Ctx}
    (hser : Serial pwd c (log ++ log') c') (hl : ∀ q ∈ log', q.conn = j ∧ (10 : Byte) ∉ q.line)
    (hs : SessionAfter pwd (log ++ log') j k'.sess)
    (hin : received j (es ++ [e]) = wire ((requestsOf j (log ++ log')).map Request.line) ++ k'.inbuf)
    (hout : Written (es ++ [e]) (log ++ log') j k' ((requestsOf j (log ++ log')).map Request.reply))
    (hend : k'.phase = .dead ↔ Closed (log ++ log') j ∨ .readErr j ∈ es ++ [e] ∨ .writeErr j ∈ es ++ [e]) :
    Explains pwd c (es ++ [e]) { s with ctx := c', conns := s.conns.set j k' } (log ++ log') := by
  have hlt : j < s.conns.length := by
    by_contra hn
    rw [List.getElem?_eq_none (by omega)] at hj; cases hj
  have other : ∀ i, i ≠ j → ∀ q ∈ log', q.conn ≠ i := fun i hi q hq e => hi (e ▸ (hl q hq).1)
  have get : ∀ i x, (s.conns.set j k')[i]? = some x → (i = j ∧ x = k') ∨ (i ≠ j ∧ s.conns[i]? = some x) := by
    intro i x hx
    rw [List.getElem?_set] at hx
    split at hx
    · rename_i e; subst e; cases hx; exact .inl ⟨rfl, rfl⟩
    · rename_i e; exact .inr ⟨fun e' => e e'.symm, hx⟩
  refine ⟨hser, ?_, ?_, h.password, ?_, ?_, ?_, ?_, ?_, ?_⟩
  · intro q hq
    simp only [List.length_set]
    rcases List.mem_append.1 hq with hq | hq
    · exact h.known q hq
    · rw [(hl q hq).1]; exact hlt
  · intro q hq
    rcases List.mem_append.1 hq with hq | hq
    · exact h.oneLine q hq
    · exact (hl q hq).2
  · rw [eventOf_accept he]; exact h.accepting
  · intro i hi
    simp only [List.length_set] at hi
    obtain ⟨e1, e2, e3⟩ := eventOf_other he (show i ≠ j by omega) es
    rw [e1, e2, e3]; exact h.unknown i hi
  · intro i x hx
    rcases get i x hx with ⟨rfl, rfl⟩ | ⟨hne, hx⟩
    · exact hs
    · unfold SessionAfter
      rw [authenticated_other (other i hne), closed_other (other i hne)]; exact h.session i x hx
  · intro i x hx
    rcases get i x hx with ⟨rfl, rfl⟩ | ⟨hne, hx⟩
    · exact hin
    · obtain ⟨e1, _, _⟩ := eventOf_other he hne es
      rw [e1, requestsOf_others (other i hne)]; exact h.input i x hx
  · intro i x hx
    rcases get i x hx with ⟨rfl, rfl⟩ | ⟨hne, hx⟩
    · exact hout
    · obtain ⟨_, _, e3⟩ := eventOf_other he hne es
      have := h.output i x hx
      unfold Written at this ⊢
      rw [e3, requestsOf_others (other i hne), closed_other (other i hne)]; exact this
  · intro i x hx
    rcases get i x hx with ⟨rfl, rfl⟩ | ⟨hne, hx⟩
    · exact hend
    · obtain ⟨_, e2, e3⟩ := eventOf_other he hne es
      rw [e2, e3, closed_other (other i hne)]; exact h.ended i x hx

theorem serial_reachable [StdSort] {pwd : Str} {c c' : Ctx} {log : List Request} (hc : Reachable c) (h : Serial pwd c log c') : Reachable c' := by
  induction h with
  | nil => exact hc
  | executed _ _ _ _ he ih => exact .step ih he
  | ignored _ _ _ _ ih => exact ih

/-- The rest of the handler, once the actor is known. -/
def handleActor [StdSort] (s : Server) (i : Nat) (c : Conn) (line rest actor : Str) : Outcome Server :=
  if c.sess.authed || isConnection actor then
    match execute s.pwd s.ctx (some c.sess) line with
    | .done (ctx', some sess', out) =>
      .done { s with
        ctx := ctx'
        conns := s.conns.set i
          { c with sess := sess', inbuf := rest, phase := if sess'.connected then .writing out else .dead } }
    | _ => .ub
  else
    .done { s with conns := s.conns.set i { c with inbuf := rest, phase := .writing Exc.notAuthenticated.text } }

theorem handleLine_actor [StdSort] (s : Server) (i : Nat) (k : Conn) (line rest : Str) :
    ∃ a, (isConnection a = true ↔ ToConnection line) ∧ handleLine s i k line rest = handleActor s i k line rest a := by
  rcases parse_cases line with ⟨p, hp⟩ | hp
  · refine ⟨p.actor, ?_, by unfold handleLine; rw [hp]; rfl⟩
    have hs := (parse_iff _ p).1 hp
    unfold isConnection
    rw [beq_iff_eq]
    constructor
    · intro e; rw [e] at hs; exact ⟨_, _, hs⟩
    · rintro ⟨n, l, hs'⟩; exact (statement_same hs hs').1
  · refine ⟨[], ?_, by unfold handleLine; rw [hp]; rfl⟩
    refine ⟨fun e => absurd e (by decide), ?_⟩
    rintro ⟨n, l, hs⟩
    rw [parse_complete _ _ _ _ hs] at hp; cases hp

/-- How a line is treated. -/
theorem handleLine_cases [StdSort] (s : Server) (i : Nat) (k : Conn) (line rest : Str) (o : Outcome Server)
    (h : handleLine s i k line rest = o) (hc : Inv s.ctx) :
    (¬ k.sess.authed = true ∧ ¬ ToConnection line ∧ o = .done { s with
      conns := s.conns.set i { k with inbuf := rest, phase := .writing b!"AuthenticationError: not authenticated." } }) ∨
    ((k.sess.authed = true ∨ ToConnection line) ∧ execute s.pwd s.ctx (some k.sess) line = .ub ∧ o = .ub) ∨
    ((k.sess.authed = true ∨ ToConnection line) ∧ ∃ c' t r, execute s.pwd s.ctx (some k.sess) line = .done (c', some t, r) ∧
      o = .done { s with
        ctx := c', conns := s.conns.set i { k with sess := t, inbuf := rest, phase := if t.connected then .writing r else .dead } }) := by
  obtain ⟨a, hconn, hh⟩ := handleLine_actor s i k line rest
  rw [hh] at h
  unfold handleActor at h
  by_cases hg : (k.sess.authed || isConnection a) = true
  · rw [if_pos hg] at h
    have hg' : k.sess.authed = true ∨ ToConnection line := by rw [← hconn]; simpa using hg
    cases he : execute s.pwd s.ctx (some k.sess) line with
    | ub => rw [he] at h; exact .inr (.inl ⟨hg', rfl, h.symm⟩)
    | done x =>
      obtain ⟨c', t, r⟩ := x
      obtain ⟨t', rfl, _⟩ := execute_session hc he
      rw [he] at h
      exact .inr (.inr ⟨hg', c', t', r, rfl, h.symm⟩)
  · rw [if_neg hg] at h
    refine .inl ⟨?_, ?_, h.symm⟩
    · intro e; rw [e] at hg; exact hg rfl
    · intro e; rw [← hconn] at e; rw [e] at hg; simp at hg

/-- What the completion of a read does, with the reply. -/
theorem explains_read [StdSort] {pwd : Str} {c : Ctx} (hc : Reachable c) {es : List Event} {s s' : Server} {log : List Request}
    (h : Explains pwd c es s log) {j : Nat} {k : Conn} {line rest : Str} (hj : s.conns[j]? = some k) (hp : k.phase = .reading)
    (hl : splitLine k.inbuf = some (line, rest)) (hst : handleLine s j k line rest = .done s') :
    ∃ r, Explains pwd c (es ++ [.read j]) s' (log ++ [⟨j, line, r⟩]) ∧
      ((¬ k.sess.authed = true ∧ r = b!"AuthenticationError: not authenticated.") ∨
        ∃ c' t, execute s.pwd s.ctx (some k.sess) line = .done (c', some t, r)) := by
  have hcur := serial_reachable hc h.serial
  obtain ⟨hb, hnl⟩ := splitLine_some hl
  have hlive : ¬ (Closed log j ∨ .readErr j ∈ es ∨ .writeErr j ∈ es) := by
    rw [← h.ended j k hj, hp]; simp
  simp only [not_or] at hlive
  have hin : ∀ q : Request, q.conn = j → q.line = line → received j (es ++ [.read j]) =
      wire ((requestsOf j (log ++ [q])).map Request.line) ++ rest := by
    intro q hq1 hq2
    subst hq1
    rw [received_append, h.input _ k hj, requestsOf_append, requestsOf_self, List.map_append, wire_append, hb]
    simp [received, wire, hq2]
  have hout := h.output j k hj
  simp only [Written, hp] at hout
  have hlen : ∀ q : Request, q.conn = j → (requestsOf j (log ++ [q])).map Request.reply =
      (requestsOf j log).map Request.reply ++ [q.reply] := by
    intro q hq; subst hq; rw [requestsOf_append, requestsOf_self]; simp
  rcases handleLine_cases s j k line rest _ rfl (reachable_inv hcur) with
    ⟨h1, h2, h3⟩ | ⟨_, _, h3⟩ | ⟨h1, c', t, r, h2, h3⟩ <;> rw [h3] at hst <;> cases hst
  · have hs := h.session j k hj
    have h1' := h1
    rw [hs.1] at h1
    have hncl : ¬ Closes line := fun hcl => h2 ⟨_, _, hcl⟩
    have hnpr : ¬ Presents pwd line := fun ⟨a, ha, _⟩ => h2 ⟨_, _, ha⟩
    refine ⟨_, explains_set h (c' := s.ctx) hj .read (.ignored h.serial hlive.1 h1 h2) (by simpa using hnl) ?_ (hin _ rfl rfl) ?_ ?_, .inl ⟨h1', rfl⟩⟩
    · unfold SessionAfter
      rw [authenticated_snoc, closed_snoc]
      exact ⟨by simpa [hnpr] using hs.1, by simpa [hncl] using hs.2⟩
    · rw [hlen _ rfl]
      exact ⟨_, rfl, hout⟩
    · rw [closed_snoc]
      simp [hncl, hlive]
  · have hs := h.session j k hj
    rw [hs.1] at h1
    have h2' := h2
    rw [h.password] at h2
    obtain ⟨t', e, ha, hcn⟩ := execute_session (reachable_inv hcur) h2
    cases e
    refine ⟨_, explains_set h hj .read (.executed h.serial hlive.1 hs h1 h2) (by simpa using hnl) ?_ (hin _ rfl rfl) ?_ ?_, .inr ⟨_, _, h2'⟩⟩
    · unfold SessionAfter
      rw [authenticated_snoc, closed_snoc]
      simp only [ha, hcn, hs.1, hs.2, true_and, not_or]
    · rw [hlen _ rfl]
      unfold Written
      by_cases htc : t.connected = true
      · simp only [htc, if_true]
        exact ⟨_, rfl, hout⟩
      · simp only [htc, if_false, Bool.false_eq_true]
        have hcl : Closed (log ++ [⟨j, line, r⟩]) j := by
          rw [closed_snoc]
          by_contra hn
          simp only [not_or, true_and] at hn
          exact htc (hcn.2 ⟨hs.2.2 hlive.1, hn.2⟩)
        exact ⟨fun _ => ⟨_, _, rfl, hout⟩, fun hn => absurd (.inl hcl) hn⟩
    · rw [closed_snoc]
      by_cases htc : t.connected = true
      · have := (hcn.1 htc).2
        simp [htc, this, hlive]
      · have : Closes line := by
          by_contra hn; exact htc (hcn.2 ⟨hs.2.2 hlive.1, hn⟩)
        simp [htc, this]

/-- One event extends the log by at most one request. -/
theorem explains_step [StdSort] {pwd : Str} {c : Ctx} (hc : Reachable c) {es : List Event} {s s' : Server} {log : List Request}
    (h : Explains pwd c es s log) {e : Event} (hst : step s e = some (.done s')) :
    ∃ log', Explains pwd c (es ++ [e]) s' (log ++ log') := by
  have hcur := serial_reachable hc h.serial
  cases e with
  | accept =>
    simp only [step] at hst
    split at hst
    · cases hst
      rename_i hacc
      refine ⟨[], ?_⟩
      rw [List.append_nil]
      have fresh : ∀ i, s.conns.length ≤ i → ∀ q ∈ log, q.conn ≠ i := fun i hi q hq e => by
        have := h.known q hq; omega
      have get : ∀ i k, (s.conns ++ [Conn.init s.pwd])[i]? = some k → s.conns[i]? = some k ∨ (i = s.conns.length ∧ k = Conn.init s.pwd) := by
        intro i k hk
        rw [List.getElem?_append] at hk
        split at hk
        · exact .inl hk
        · right
          rw [List.getElem?_singleton] at hk
          split at hk
          · cases hk; exact ⟨by omega, rfl⟩
          · cases hk
      have req : ∀ i, s.conns.length ≤ i → requestsOf i log = [] := fun i hi => by
        have := requestsOf_others (log := []) (fresh i hi)
        rw [List.nil_append] at this; exact this
      have cl : ∀ i, s.conns.length ≤ i → ¬ Closed log i := fun i hi ⟨q, hq, e, _⟩ => fresh i hi q hq e
      refine ⟨h.serial, ?_, h.oneLine, h.password, ?_, ?_, ?_, ?_, ?_, ?_⟩
      · intro q hq; have := h.known q hq; simp; omega
      · simp only [List.mem_append, List.mem_singleton]; simpa using h.accepting
      · intro i hi
        simp only [List.length_append, List.length_cons, List.length_nil] at hi
        simpa [received_append, received] using h.unknown i (by omega)
      · intro i k hk
        rcases get i k hk with hk | ⟨rfl, rfl⟩
        · exact h.session i k hk
        · refine ⟨?_, by simp [Conn.init, Session.init, cl _ (Nat.le_refl _)]⟩
          simp only [Conn.init, Session.init, beq_iff_eq, h.password, Authenticated]
          constructor
          · exact .inl
          · rintro (e | ⟨q, hq, e, _⟩)
            · exact e
            · exact absurd e (fresh _ (Nat.le_refl _) q hq)
      · intro i k hk
        rcases get i k hk with hk | ⟨rfl, rfl⟩
        · simpa [received_append, received] using h.input i k hk
        · rw [req _ (Nat.le_refl _)]
          simpa [received_append, received, Conn.init, wire] using (h.unknown _ (Nat.le_refl _)).1
      · intro i k hk
        rcases get i k hk with hk | ⟨rfl, rfl⟩
        · have := h.output i k hk
          unfold Written at this ⊢
          simpa using this
        · rw [req _ (Nat.le_refl _)]; rfl
      · intro i k hk
        rcases get i k hk with hk | ⟨rfl, rfl⟩
        · simpa using h.ended i k hk
        · obtain ⟨_, h1, h2⟩ := h.unknown _ (Nat.le_refl _)
          simp [Conn.init, cl _ (Nat.le_refl _), h1, h2]
    · cases hst
  | acceptErr =>
    simp only [step] at hst
    split at hst
    · cases hst
      refine ⟨[], ?_⟩
      rw [List.append_nil]
      refine ⟨h.serial, h.known, h.oneLine, h.password, by simp, ?_, h.session, ?_, ?_, ?_⟩
      · intro i hi; simpa [received_append, received] using h.unknown i hi
      · intro i k hk; simpa [received_append, received] using h.input i k hk
      · intro i k hk
        have := h.output i k hk
        unfold Written at this ⊢
        simpa using this
      · intro i k hk; simpa using h.ended i k hk
    · cases hst
  | recv j b =>
    simp only [step] at hst
    split at hst
    · rename_i k hj
      split at hst
      · cases hst
      · cases hst
        rename_i hp
        refine ⟨[], explains_set h (c' := s.ctx) hj (.recv b) (by rw [List.append_nil]; exact h.serial) (by simp) ?_ ?_ ?_ ?_⟩ <;> rw [List.append_nil]
        · exact h.session j k hj
        · rw [received_append, h.input j k hj]; simp [received]
        · have := h.output j k hj
          unfold Written at this ⊢
          simpa using this
        · simpa using h.ended j k hj
    · cases hst
  | read j =>
    simp only [step] at hst
    split at hst
    · rename_i k hj
      split at hst
      · rename_i hp
        split at hst
        · rename_i line rest hl
          obtain ⟨r, h1, _⟩ := explains_read hc h hj hp hl (Option.some.inj hst)
          exact ⟨_, h1⟩
        · cases hst
      · cases hst
    · cases hst
  | readErr j =>
    simp only [step] at hst
    split at hst
    · rename_i k hj
      split at hst
      · cases hst
        rename_i hp
        have hlive : ¬ (Closed log j ∨ .readErr j ∈ es ∨ .writeErr j ∈ es) := by
          rw [← h.ended j k hj, hp]; simp
        simp only [not_or] at hlive
        have hout := h.output j k hj
        simp only [Written, hp] at hout
        refine ⟨[], explains_set h (c' := s.ctx) hj .readErr (by rw [List.append_nil]; exact h.serial) (by simp) ?_ ?_ ?_ ?_⟩ <;> rw [List.append_nil]
        · exact h.session j k hj
        · rw [received_append, h.input j k hj]; simp [received]
        · refine ⟨fun hh => ?_, fun _ => hout⟩
          simp [hlive] at hh
        · simp
      · cases hst
    · cases hst
  | wrote j =>
    simp only [step] at hst
    split at hst
    · rename_i k hj
      split at hst
      · rename_i reply hp
        split at hst
        · cases hst
          have hlive : ¬ (Closed log j ∨ .readErr j ∈ es ∨ .writeErr j ∈ es) := by
            rw [← h.ended j k hj, hp]; simp
          simp only [not_or] at hlive
          have hout := h.output j k hj
          simp only [Written, hp] at hout
          obtain ⟨rs, h1, h2⟩ := hout
          refine ⟨[], explains_set h (c' := s.ctx) hj .wrote (by rw [List.append_nil]; exact h.serial) (by simp) ?_ ?_ ?_ ?_⟩ <;> rw [List.append_nil]
          · exact h.session j k hj
          · rw [received_append, h.input j k hj]; simp [received]
          · simp only [Written]
            rw [h1, h2, wire_append, wire_single]
          · simp [hlive]
        · cases hst
      · cases hst
    · cases hst
  | wroteShort j =>
    simp only [step] at hst
    split at hst
    · split at hst <;> cases hst
    · cases hst
  | writeErr j =>
    simp only [step] at hst
    split at hst
    · rename_i k hj
      split at hst
      · cases hst
        rename_i reply hp
        have hout := h.output j k hj
        simp only [Written, hp] at hout
        obtain ⟨rs, h1, h2⟩ := hout
        refine ⟨[], explains_set h (c' := s.ctx) hj .writeErr (by rw [List.append_nil]; exact h.serial) (by simp) ?_ ?_ ?_ ?_⟩ <;> rw [List.append_nil]
        · exact h.session j k hj
        · rw [received_append, h.input j k hj]; simp [received]
        · refine ⟨fun _ => ⟨rs, reply, h1, h2⟩, fun hn => ?_⟩
          simp at hn
        · simp
      · cases hst
    · cases hst

theorem explains_run [StdSort] {pwd : Str} {c : Ctx} (hc : Reachable c) {es es' : List Event} {s s' : Server} {log : List Request}
    (h : Explains pwd c es s log) (hr : run s es' = some (.done s')) : ∃ log', Explains pwd c (es ++ es') s' (log ++ log') := by
  induction es' generalizing es s log with
  | nil => cases hr; exact ⟨[], by simpa using h⟩
  | cons e es' ih =>
    simp only [run] at hr
    cases hst : step s e with
    | none => rw [hst] at hr; cases hr
    | some o => cases o with
      | ub => rw [hst] at hr; cases hr
      | done s1 =>
        rw [hst] at hr
        obtain ⟨l1, h1⟩ := explains_step hc h hst
        obtain ⟨l2, h2⟩ := ih h1 hr
        exact ⟨l1 ++ l2, by simpa using h2⟩

theorem explains_init [StdSort] (pwd : Str) (c : Ctx) : Explains pwd c [] (Server.init pwd c) [] :=
  ⟨.nil, by simp, by simp, rfl, by simp [Server.init], by simp [received], by simp [Server.init], by simp [Server.init],
    by simp [Server.init], by simp [Server.init]⟩

end Knuckle
