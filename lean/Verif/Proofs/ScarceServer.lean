/-
The event loop on a machine whose memory can run out refines the serial execution of pieces.
-/
import Verif.Spec.ScarceServer
import Verif.Proofs.Serial
import Verif.Props.Scarce

namespace Knuckle

open Spec Props
open Heap (PosSort HCtx Stands)
open Scarce (Supply SServer Next Fate)

/-! ### Supplies -/

theorem refused_suffix {f f' : Supply} (h : f' <:+ f) : Refused f' → Refused f := fun ⟨k, hk⟩ => ⟨k, h.subset hk⟩

theorem scarcely_mono [StdSort] {pwd : Str} {c c' : Ctx} {s s' : Option Session} {text r : Str} {f f' : Supply} (hf : Refused f' → Refused f)
    (h : Scarcely pwd c s text f' c' s' r) : Scarcely pwd c s text f c' s' r := by
  cases h with
  | ordinary e => exact .ordinary e
  | cut h1 h2 h3 h4 h5 h6 => exact .cut (hf h1) h2 h3 h4 h5 h6
  | nothing h1 h2 h3 => exact .nothing (hf h1) h2 h3
  | interrupted h1 h2 h3 h4 h5 h6 => exact .interrupted (hf h1) h2 h3 h4 h5 h6

/-! ### Sessions -/

theorem presents_reply [StdSort] {pwd : Str} {c c' : Ctx} {s : Session} {s' : Option Session} {line r : Str} (hp : Presents pwd line)
    (h : execute pwd c (some s) line = .done (c', s', r)) : r = b!"null" := by
  obtain ⟨a, hs, hl⟩ := hp
  rw [execute_toConnection c s hs] at h
  have hd := session_does pwd s b!"authenticateWithPassword:" [a]
  generalize s.receive pwd b!"authenticateWithPassword:" [a] = y at hd h
  cases hd with
  | auth => cases h; rfl
  | wrong h1 h2 => exact absurd ((Res.ok.inj ((stringLit_denotes _ _ h1).symm.trans (stringLit_denotes _ _ hl)))) h2
  | invalid h1 => obtain ⟨b, e, hb, -⟩ := hl; exact absurd ⟨b, e, hb⟩ h1
  | wrongNumber h1 => exact absurd rfl h1
  | noMessage h1 h2 => exact absurd rfl h2

theorem closes_reply [StdSort] {pwd : Str} {c c' : Ctx} {s : Session} {s' : Option Session} {line r : Str} (hp : Closes line)
    (h : execute pwd c (some s) line = .done (c', s', r)) : r = b!"null" := by
  rw [execute_toConnection c s hp] at h
  cases h; rfl

theorem scarcely_session [StdSort] {pwd : Str} {c c' : Ctx} (hc : Inv c) {s : Session} {s' : Option Session} {line r : Str} {f : Supply}
    (h : Scarcely pwd c (some s) line f c' s' r) :
    ∃ t, s' = some t ∧ (t.authed = true ↔ s.authed = true ∨ (Presents pwd line ∧ r = b!"null")) ∧
      (t.connected = true ↔ s.connected = true ∧ ¬ (Closes line ∧ r = b!"null")) := by
  cases h with
  | ordinary e =>
    obtain ⟨t, rfl, h1, h2⟩ := execute_session hc e
    refine ⟨t, rfl, h1.trans (or_congr Iff.rfl ⟨fun h => ⟨h, presents_reply h e⟩, And.left⟩),
      h2.trans (and_congr Iff.rfl (not_congr ⟨fun h => ⟨h, closes_reply h e⟩, And.left⟩))⟩
  | cut _ e hf _ _ _ =>
    obtain ⟨t, rfl, h1, h2⟩ := execute_session hc e
    have hn : ¬ ToConnection line := by
      rintro ⟨name, args, hs⟩
      rcases hf with ⟨n, m, l, i, hs', hn, -⟩ | ⟨l, hs'⟩
      · obtain ⟨rfl, -⟩ := statement_same hs hs'
        exact actor_connection_not_variable ((hc.vars _ (lookup_some_mem hn)).1)
      · exact absurd (statement_same hs hs').1 (by decide)
    have hp : ¬ Presents pwd line := fun ⟨a, ha, _⟩ => hn ⟨_, _, ha⟩
    have hcl : ¬ Closes line := fun h => hn ⟨_, _, h⟩
    exact ⟨t, rfl, by simpa [hp] using h1, by simpa [hcl] using h2⟩
  | nothing => exact ⟨s, rfl, by simp [show b!"RuntimeError: unknown error." ≠ b!"null" by decide],
      by simp [show b!"RuntimeError: unknown error." ≠ b!"null" by decide]⟩
  | interrupted => exact ⟨s, rfl, by simp [show b!"RuntimeError: unknown error." ≠ b!"null" by decide],
      by simp [show b!"RuntimeError: unknown error." ≠ b!"null" by decide]⟩

/-! ### Logs of pieces -/

theorem agreed_append (a b : List Piece) : agreed (a ++ b) = agreed a ++ agreed b := by simp [agreed]

theorem mem_agreed {log : List Piece} {x : Request} : x ∈ agreed log ↔ ∃ q ∈ log, q.toRequest = x ∧ q.reply = b!"null" := by
  unfold agreed
  rw [List.mem_filter, List.mem_map, beq_iff_eq]
  constructor
  · rintro ⟨⟨q, h1, rfl⟩, h2⟩; exact ⟨q, h1, rfl, h2⟩
  · rintro ⟨q, h1, rfl, h2⟩; exact ⟨⟨q, h1, rfl⟩, h2⟩

theorem agreed_authenticated_snoc {pwd : Str} {log : List Piece} {q : Piece} {i : Nat} :
    Authenticated pwd (agreed (log ++ [q])) i ↔
      Authenticated pwd (agreed log) i ∨ (q.conn = i ∧ Presents pwd q.line ∧ q.reply = b!"null") := by
  unfold Authenticated
  constructor
  · rintro (h | ⟨x, hx, h1, h2⟩)
    · exact .inl (.inl h)
    · obtain ⟨p, hp, rfl, h3⟩ := mem_agreed.1 hx
      rcases List.mem_append.1 hp with hp | hp
      · exact .inl (.inr ⟨_, mem_agreed.2 ⟨p, hp, rfl, h3⟩, h1, h2⟩)
      · rw [List.mem_singleton.1 hp] at h1 h2 h3; exact .inr ⟨h1, h2, h3⟩
  · rintro ((h | ⟨x, hx, h⟩) | ⟨h1, h2, h3⟩)
    · exact .inl h
    · rw [agreed_append]; exact .inr ⟨x, List.mem_append_left _ hx, h⟩
    · exact .inr ⟨_, mem_agreed.2 ⟨q, by simp, rfl, h3⟩, h1, h2⟩

theorem agreed_closed_snoc {log : List Piece} {q : Piece} {i : Nat} :
    Closed (agreed (log ++ [q])) i ↔ Closed (agreed log) i ∨ (q.conn = i ∧ Closes q.line ∧ q.reply = b!"null") := by
  unfold Closed
  constructor
  · rintro ⟨x, hx, h1, h2⟩
    obtain ⟨p, hp, rfl, h3⟩ := mem_agreed.1 hx
    rcases List.mem_append.1 hp with hp | hp
    · exact .inl ⟨_, mem_agreed.2 ⟨p, hp, rfl, h3⟩, h1, h2⟩
    · rw [List.mem_singleton.1 hp] at h1 h2 h3; exact .inr ⟨h1, h2, h3⟩
  · rintro (⟨x, hx, h⟩ | ⟨h1, h2, h3⟩)
    · rw [agreed_append]; exact ⟨x, List.mem_append_left _ hx, h⟩
    · exact ⟨_, mem_agreed.2 ⟨q, by simp, rfl, h3⟩, h1, h2⟩

theorem agreed_others {log' : List Piece} {i : Nat} (h : ∀ q ∈ log', q.conn ≠ i) : ∀ q ∈ agreed log', q.conn ≠ i := by
  intro q hq
  obtain ⟨p, hp, rfl, -⟩ := mem_agreed.1 hq
  exact h p hp

theorem piecesOf_append (i : Nat) (a b : List Piece) : piecesOf i (a ++ b) = piecesOf i a ++ piecesOf i b := by simp [piecesOf]

theorem piecesOf_self (q : Piece) : piecesOf q.conn [q] = [q] := by simp [piecesOf]

theorem piecesOf_others {log log' : List Piece} {i : Nat} (h : ∀ q ∈ log', q.conn ≠ i) :
    piecesOf i (log ++ log') = piecesOf i log := by
  rw [piecesOf_append]
  have : piecesOf i log' = [] := by
    unfold piecesOf; rw [List.filter_eq_nil_iff]; intro q hq; simpa using h q hq
  rw [this, List.append_nil]

/-! ### Serial executions -/

theorem scarceSerial_snoc [StdSort] {pwd : Str} {c c' : Ctx} {log : List Piece} {q : Piece} (h : ScarceSerial pwd c (log ++ [q]) c') :
    ∃ d, ScarceSerial pwd c log d ∧ ¬ Closed (agreed log) q.conn ∧
      ((∃ s s', SessionAfter pwd (agreed log) q.conn s ∧ (Authenticated pwd (agreed log) q.conn ∨ ToConnection q.line) ∧
          Scarcely pwd d (some s) q.line q.memory c' (some s') q.reply) ∨
        (¬ Authenticated pwd (agreed log) q.conn ∧ (ToConnection q.line → Refused q.memory) ∧
          q.reply = b!"AuthenticationError: not authenticated." ∧ c' = d)) := by
  generalize hl : log ++ [q] = l at h
  cases h with
  | nil => simp at hl
  | executed h1 h2 h3 h4 h5 =>
    obtain ⟨rfl, e⟩ := List.append_inj' hl rfl
    cases e
    exact ⟨_, h1, h2, .inl ⟨_, _, h3, h4, h5⟩⟩
  | ignored h1 h2 h3 h4 h5 =>
    obtain ⟨rfl, e⟩ := List.append_inj' hl rfl
    cases e
    exact ⟨_, h1, h2, .inr ⟨h3, h4, h5, rfl⟩⟩

theorem scarceSerial_as_if [StdSort] {pwd : Str} {c c' d : Ctx} {log : List Piece} (hd : Reachable d) (hs : SameData d c)
    (h : ScarceSerial pwd c log c') : ∃ d', Reachable d' ∧ SameData d' c' := by
  induction h with
  | nil => exact ⟨d, hd, hs⟩
  | executed _ _ _ _ h1 ih =>
    obtain ⟨d1, h2, h3⟩ := ih
    exact scarcely_as_if h2 h3 h1
  | ignored _ _ _ _ _ ih => exact ih

theorem scarceSerial_inv [StdSort] {pwd : Str} {c c' : Ctx} {log : List Piece} (hc : Reachable c) (h : ScarceSerial pwd c log c') : Inv c' := by
  obtain ⟨d, h1, h2⟩ := scarceSerial_as_if hc ⟨rfl, rfl⟩ h
  exact inv_same h2 (reachable_inv h1)

/-! ### The invariant -/

theorem scarceExplains_set [StdSort] {lost : Nat} {pwd : Str} {c : Ctx} {es : List Event} {s : Server} {log : List Piece}
    (h : ScarceExplains lost pwd c es s log)
    {j : Nat} {k k' : Conn} (hj : s.conns[j]? = some k) {e : Event} (he : EventOf j e) {log' : List Piece} {c' : Ctx}
    (hser : ScarceSerial pwd c (log ++ log') c') (hl : ∀ q ∈ log', q.conn = j ∧ Taken lost q)
    (hs : SessionAfter pwd (agreed (log ++ log')) j k'.sess)
    (hin : received j (es ++ [e]) = ((piecesOf j (log ++ log')).map fun q => q.line ++ q.skipped).flatten ++ k'.inbuf)
    (hout : Written (es ++ [e]) (agreed (log ++ log')) j k' ((piecesOf j (log ++ log')).map fun q => q.reply))
    (hend : k'.phase = .dead ↔ Closed (agreed (log ++ log')) j ∨ .readErr j ∈ es ++ [e] ∨ .writeErr j ∈ es ++ [e]) :
    ScarceExplains lost pwd c (es ++ [e]) { s with ctx := c', conns := s.conns.set j k' } (log ++ log') := by
  have hlt : j < s.conns.length := by
    by_contra hn
    rw [List.getElem?_eq_none (by omega)] at hj; cases hj
  have other : ∀ i, i ≠ j → ∀ q ∈ log', q.conn ≠ i := fun i hi q hq e => hi (e ▸ (hl q hq).1)
  have get : ∀ i x, (s.conns.set j k')[i]? = some x → (i = j ∧ x = k') ∨ (i ≠ j ∧ s.conns[i]? = some x) := by
    intro i x hx
    rw [List.getElem?_set] at hx
    split at hx
    · rename_i e; subst e; cases hx; exact .inl ⟨rfl, rfl⟩
    · rename_i e; exact .inr ⟨fun e' => e e'.symm, hx⟩
  refine ⟨hser, ?_, ?_, h.password, ?_, ?_, ?_, ?_, ?_, ?_⟩
  · intro q hq
    simp only [List.length_set]
    rcases List.mem_append.1 hq with hq | hq
    · exact h.known q hq
    · rw [(hl q hq).1]; exact hlt
  · intro q hq
    rcases List.mem_append.1 hq with hq | hq
    · exact h.taken q hq
    · exact (hl q hq).2
  · rw [eventOf_accept he]; exact h.accepting
  · intro i hi
    simp only [List.length_set] at hi
    obtain ⟨e1, e2, e3⟩ := eventOf_other he (show i ≠ j by omega) es
    rw [e1, e2, e3]; exact h.unknown i hi
  · intro i x hx
    rcases get i x hx with ⟨rfl, rfl⟩ | ⟨hne, hx⟩
    · exact hs
    · unfold SessionAfter
      rw [agreed_append, authenticated_other (agreed_others (other i hne)), closed_other (agreed_others (other i hne))]
      exact h.session i x hx
  · intro i x hx
    rcases get i x hx with ⟨rfl, rfl⟩ | ⟨hne, hx⟩
    · exact hin
    · obtain ⟨e1, _, _⟩ := eventOf_other he hne es
      rw [e1, piecesOf_others (other i hne)]; exact h.input i x hx
  · intro i x hx
    rcases get i x hx with ⟨rfl, rfl⟩ | ⟨hne, hx⟩
    · exact hout
    · obtain ⟨_, _, e3⟩ := eventOf_other he hne es
      have := h.output i x hx
      unfold Written at this ⊢
      rw [e3, piecesOf_others (other i hne), agreed_append, closed_other (agreed_others (other i hne))]; exact this
  · intro i x hx
    rcases get i x hx with ⟨rfl, rfl⟩ | ⟨hne, hx⟩
    · exact hend
    · obtain ⟨_, e2, e3⟩ := eventOf_other he hne es
      rw [e2, e3, agreed_append, closed_other (agreed_others (other i hne))]; exact h.ended i x hx

/-- An event other than the completion of a read. -/
theorem scarceExplains_other [StdSort] {lost : Nat} {pwd : Str} {c : Ctx} {es : List Event} {s s' : Server} {log : List Piece}
    (h : ScarceExplains lost pwd c es s log) {e : Event} (hne : ∀ i, e ≠ .read i) (hst : step s e = some (.done s')) :
    ScarceExplains lost pwd c (es ++ [e]) s' log := by
  cases e with
  | accept =>
    simp only [step] at hst
    split at hst
    · cases hst
      rename_i hacc
      skip
      have fresh : ∀ i, s.conns.length ≤ i → ∀ q ∈ log, q.conn ≠ i := fun i hi q hq e => by
        have := h.known q hq; omega
      have get : ∀ i k, (s.conns ++ [Conn.init s.pwd])[i]? = some k → s.conns[i]? = some k ∨ (i = s.conns.length ∧ k = Conn.init s.pwd) := by
        intro i k hk
        rw [List.getElem?_append] at hk
        split at hk
        · exact .inl hk
        · right
          rw [List.getElem?_singleton] at hk
          split at hk
          · cases hk; exact ⟨by omega, rfl⟩
          · cases hk
      have req : ∀ i, s.conns.length ≤ i → piecesOf i log = [] := fun i hi => by
        have := piecesOf_others (log := []) (fresh i hi)
        rw [List.nil_append] at this; exact this
      have cl : ∀ i, s.conns.length ≤ i → ¬ Closed (agreed log) i := fun i hi ⟨q, hq, e, _⟩ => agreed_others (fresh i hi) q hq e
      refine ⟨h.serial, ?_, h.taken, h.password, ?_, ?_, ?_, ?_, ?_, ?_⟩
      · intro q hq; have := h.known q hq; simp; omega
      · simp only [List.mem_append, List.mem_singleton]; simpa using h.accepting
      · intro i hi
        simp only [List.length_append, List.length_cons, List.length_nil] at hi
        simpa [received_append, received] using h.unknown i (by omega)
      · intro i k hk
        rcases get i k hk with hk | ⟨rfl, rfl⟩
        · exact h.session i k hk
        · refine ⟨?_, by simp [Conn.init, Session.init, cl _ (Nat.le_refl _)]⟩
          simp only [Conn.init, Session.init, beq_iff_eq, h.password, Authenticated]
          constructor
          · exact .inl
          · rintro (e | ⟨q, hq, e, _⟩)
            · exact e
            · exact absurd e (agreed_others (fresh _ (Nat.le_refl _)) q hq)
      · intro i k hk
        rcases get i k hk with hk | ⟨rfl, rfl⟩
        · simpa [received_append, received] using h.input i k hk
        · rw [req _ (Nat.le_refl _)]
          simpa [received_append, received, Conn.init, wire] using (h.unknown _ (Nat.le_refl _)).1
      · intro i k hk
        rcases get i k hk with hk | ⟨rfl, rfl⟩
        · have := h.output i k hk
          unfold Written at this ⊢
          simpa using this
        · rw [req _ (Nat.le_refl _)]; rfl
      · intro i k hk
        rcases get i k hk with hk | ⟨rfl, rfl⟩
        · simpa using h.ended i k hk
        · obtain ⟨_, h1, h2⟩ := h.unknown _ (Nat.le_refl _)
          simp [Conn.init, cl _ (Nat.le_refl _), h1, h2]
    · cases hst
  | acceptErr =>
    simp only [step] at hst
    split at hst
    · cases hst
      skip
      refine ⟨h.serial, h.known, h.taken, h.password, by simp, ?_, h.session, ?_, ?_, ?_⟩
      · intro i hi; simpa [received_append, received] using h.unknown i hi
      · intro i k hk; simpa [received_append, received] using h.input i k hk
      · intro i k hk
        have := h.output i k hk
        unfold Written at this ⊢
        simpa using this
      · intro i k hk; simpa using h.ended i k hk
    · cases hst
  | recv j b =>
    simp only [step] at hst
    split at hst
    · rename_i k hj
      split at hst
      · cases hst
      · cases hst
        rename_i hp
        rw [← List.append_nil log]
        refine scarceExplains_set h (c' := s.ctx) hj (.recv b) (by rw [List.append_nil]; exact h.serial) (by simp) ?_ ?_ ?_ ?_ <;> rw [List.append_nil]
        · exact h.session j k hj
        · rw [received_append, h.input j k hj]; simp [received]
        · have := h.output j k hj
          unfold Written at this ⊢
          simpa using this
        · simpa using h.ended j k hj
    · cases hst
  | read j => exact absurd rfl (hne j)
  | readErr j =>
    simp only [step] at hst
    split at hst
    · rename_i k hj
      split at hst
      · cases hst
        rename_i hp
        have hlive : ¬ (Closed (agreed log) j ∨ .readErr j ∈ es ∨ .writeErr j ∈ es) := by
          rw [← h.ended j k hj, hp]; simp
        simp only [not_or] at hlive
        have hout := h.output j k hj
        simp only [Written, hp] at hout
        rw [← List.append_nil log]
        refine scarceExplains_set h (c' := s.ctx) hj .readErr (by rw [List.append_nil]; exact h.serial) (by simp) ?_ ?_ ?_ ?_ <;> rw [List.append_nil]
        · exact h.session j k hj
        · rw [received_append, h.input j k hj]; simp [received]
        · refine ⟨fun hh => ?_, fun _ => hout⟩
          simp [hlive] at hh
        · simp
      · cases hst
    · cases hst
  | wrote j =>
    simp only [step] at hst
    split at hst
    · rename_i k hj
      split at hst
      · rename_i reply hp
        split at hst
        · cases hst
          have hlive : ¬ (Closed (agreed log) j ∨ .readErr j ∈ es ∨ .writeErr j ∈ es) := by
            rw [← h.ended j k hj, hp]; simp
          simp only [not_or] at hlive
          have hout := h.output j k hj
          simp only [Written, hp] at hout
          obtain ⟨rs, h1, h2⟩ := hout
          rw [← List.append_nil log]
          refine scarceExplains_set h (c' := s.ctx) hj .wrote (by rw [List.append_nil]; exact h.serial) (by simp) ?_ ?_ ?_ ?_ <;> rw [List.append_nil]
          · exact h.session j k hj
          · rw [received_append, h.input j k hj]; simp [received]
          · simp only [Written]
            rw [h1, h2, wire_append, wire_single]
          · simp [hlive]
        · cases hst
      · cases hst
    · cases hst
  | wroteShort j =>
    simp only [step] at hst
    split at hst
    · split at hst <;> cases hst
    · cases hst
  | writeErr j =>
    simp only [step] at hst
    split at hst
    · rename_i k hj
      split at hst
      · cases hst
        rename_i reply hp
        have hout := h.output j k hj
        simp only [Written, hp] at hout
        obtain ⟨rs, h1, h2⟩ := hout
        rw [← List.append_nil log]
        refine scarceExplains_set h (c' := s.ctx) hj .writeErr (by rw [List.append_nil]; exact h.serial) (by simp) ?_ ?_ ?_ ?_ <;> rw [List.append_nil]
        · exact h.session j k hj
        · rw [received_append, h.input j k hj]; simp [received]
        · refine ⟨fun _ => ⟨rs, reply, h1, h2⟩, fun hn => ?_⟩
          simp at hn
        · simp
      · cases hst
    · cases hst

/-- The completion of a read that takes a piece. -/
theorem scarceExplains_read [StdSort] {lost : Nat} {pwd : Str} {c : Ctx} {es : List Event} {s : Server} {log : List Piece}
    (hc : Reachable c) (h : ScarceExplains lost pwd c es s log) {q : Piece} {k : Conn} {rest : Str} (hj : s.conns[q.conn]? = some k)
    (hp : k.phase = .reading) (hb : k.inbuf = q.line ++ q.skipped ++ rest) (ht : Taken lost q) :
    (k.sess.authed = true ∨ ToConnection q.line → ∀ {c' t}, Scarcely pwd s.ctx (some k.sess) q.line q.memory c' (some t) q.reply →
      ScarceExplains lost pwd c (es ++ [.read q.conn]) { s with
        ctx := c', conns := s.conns.set q.conn { k with sess := t, inbuf := rest, phase := if t.connected then .writing q.reply else .dead } }
        (log ++ [q])) ∧
    (¬ k.sess.authed = true → (ToConnection q.line → Refused q.memory) → q.reply = b!"AuthenticationError: not authenticated." →
      ScarceExplains lost pwd c (es ++ [.read q.conn]) { s with
        conns := s.conns.set q.conn { k with inbuf := rest, phase := .writing q.reply } } (log ++ [q])) := by
  have hi := scarceSerial_inv hc h.serial
  have hlive : ¬ (Closed (agreed log) q.conn ∨ .readErr q.conn ∈ es ∨ .writeErr q.conn ∈ es) := by
    rw [← h.ended q.conn k hj, hp]; simp
  simp only [not_or] at hlive
  have hin : received q.conn (es ++ [.read q.conn]) =
      ((piecesOf q.conn (log ++ [q])).map fun q => q.line ++ q.skipped).flatten ++ rest := by
    rw [received_append, h.input _ k hj, piecesOf_append, piecesOf_self, List.map_append, hb]
    simp [received]
  have hout := h.output q.conn k hj
  simp only [Written, hp] at hout
  have hlen : (piecesOf q.conn (log ++ [q])).map (fun q => q.reply) = (piecesOf q.conn log).map (fun q => q.reply) ++ [q.reply] := by
    rw [piecesOf_append, piecesOf_self]; simp
  have hs := h.session q.conn k hj
  constructor
  · intro h1 c' t h2
    obtain ⟨t', e, ha, hcn⟩ := scarcely_session hi h2
    cases e
    rw [hs.1] at h1
    refine scarceExplains_set h hj .read (.executed h.serial hlive.1 hs h1 h2) (by simpa using ht) ?_ hin ?_ ?_
    · unfold SessionAfter
      rw [agreed_authenticated_snoc, agreed_closed_snoc]
      simp only [ha, hcn, hs.1, hs.2, true_and, not_or]
    · rw [hlen]
      unfold Written
      by_cases htc : t.connected = true
      · simp only [htc, if_true]
        exact ⟨_, rfl, hout⟩
      · simp only [htc, if_false, Bool.false_eq_true]
        have hcl : Closed (agreed (log ++ [q])) q.conn := by
          rw [agreed_closed_snoc]
          by_contra hn
          simp only [not_or, true_and] at hn
          exact htc (hcn.2 ⟨hs.2.2 hlive.1, hn.2⟩)
        exact ⟨fun _ => ⟨_, _, rfl, hout⟩, fun hn => absurd (.inl hcl) hn⟩
    · rw [agreed_closed_snoc]
      by_cases htc : t.connected = true
      · have := (hcn.1 htc).2
        simp only [htc, if_true, reduceCtorEq, true_and, hlive, this, List.mem_append, List.mem_singleton, or_self]
      · have : Closes q.line ∧ q.reply = b!"null" := by
          by_contra hn; exact htc (hcn.2 ⟨hs.2.2 hlive.1, hn⟩)
        simp only [htc, if_false, Bool.false_eq_true, true_and, true_iff]
        exact .inl (.inr this)
  · intro h1 h2 h3
    rw [hs.1] at h1
    have hn : q.reply ≠ b!"null" := by rw [h3]; decide
    refine scarceExplains_set h (c' := s.ctx) hj .read (.ignored h.serial hlive.1 h1 h2 h3) (by simpa using ht) ?_ hin ?_ ?_
    · unfold SessionAfter
      rw [agreed_authenticated_snoc, agreed_closed_snoc]
      exact ⟨by simpa [hn] using hs.1, by simpa [hn] using hs.2⟩
    · rw [hlen]
      exact ⟨_, rfl, hout⟩
    · rw [agreed_closed_snoc]
      simp [hn, hlive]

/-! ### The program -/

/-- The same process, with pointers and without. -/
structure SRel (s : SServer) (t : Server) : Prop where
  pwd : s.pwd = t.pwd
  ctx : Stands s.ctx t.ctx
  conns : s.conns = t.conns
  accepting : s.accepting = t.accepting

theorem ask_some {f f' : Supply} {k : Nat} (h : Scarce.ask f = (some k, f')) : Refused f :=
  ⟨k, by rw [Scarce.ask_refused h]; exact List.mem_cons_self⟩

theorem ask_fst {f : Supply} {k : Nat} (h : (Scarce.ask f).1 = some k) : Refused f := ask_some (f' := (Scarce.ask f).2) (by rw [← h])

/-- What `std::getline` takes. -/
theorem getLine_taken {lost : Nat} {line rest : Str} {f : Supply} (hl : (10 : Byte) ∉ line) :
    ∃ skipped, line ++ 10 :: rest = (Scarce.getLine lost line rest (Scarce.ask f).1).1 ++ skipped ++
        (Scarce.getLine lost line rest (Scarce.ask f).1).2 ∧
      ((10 : Byte) ∉ (Scarce.getLine lost line rest (Scarce.ask f).1).1 ∧
        (skipped = [10] ∨ Refused f ∧ (10 : Byte) ∉ skipped ∧ skipped.length ≤ lost)) := by
  rcases e : (Scarce.ask f).1 with _ | k
  · exact ⟨[10], by simp [Scarce.getLine], by simpa [Scarce.getLine] using hl⟩
  · simp only [Scarce.getLine]
    split
    · refine ⟨(line.drop k).take lost, ?_, fun h => hl (List.mem_of_mem_take h), .inr ⟨ask_fst e, fun h => hl ?_, List.length_take_le _ _⟩⟩
      · have e1 : line.drop (k + lost) = (line.drop k).drop lost := by rw [List.drop_drop]
        rw [e1, List.append_assoc, ← List.append_assoc ((line.drop k).take lost), List.take_append_drop, ← List.append_assoc,
          List.take_append_drop]
      · exact List.mem_of_mem_drop (List.mem_of_mem_take h)
    · exact ⟨[10], by simp, by simpa using hl⟩

theorem actorOf_cases (line : Str) (f : Supply) : ∃ a f', Scarce.actorOf line f = (.ok a, f') ∧ f' <:+ f ∧
    (isConnection a = true → ToConnection line) ∧ (ToConnection line → isConnection a = false → Refused f) := by
  unfold Scarce.actorOf
  rcases e : Scarce.ask f with ⟨_ | k, f'⟩
  · simp only
    have hs := Scarce.ask_snd e
    rcases parse_cases line with ⟨p, hp⟩ | hp
    · rw [hp]
      have hst := (parse_iff _ p).1 hp
      refine ⟨_, _, rfl, hs, fun h => ?_, ?_⟩
      · unfold isConnection at h
        rw [beq_iff_eq] at h
        rw [h] at hst
        exact ⟨_, _, hst⟩
      · rintro ⟨n, l, h⟩ h1
        rw [(statement_same hst h).1] at h1
        cases h1
    · rw [hp]
      refine ⟨_, _, rfl, hs, fun h => absurd h (by decide), ?_⟩
      rintro ⟨n, l, h⟩ h1
      rw [parse_complete _ _ _ _ h] at hp; cases hp
  · exact ⟨_, _, rfl, Scarce.ask_snd e, fun h => absurd h (by decide), fun _ _ => ask_some e⟩

theorem fatal_mono [StdSort] {pwd : Str} {c : Ctx} {s : Option Session} {text : Str} {f f' : Supply} (hf : f' <:+ f)
    (h : Fatal pwd c s text f') : Fatal pwd c s text f := by
  rcases h with ⟨k, x, h1, h2⟩ | ⟨h, h'⟩ | ⟨h, h'⟩
  · exact .inl ⟨k, x, h1.trans hf, h2⟩
  · exact .inr (.inl ⟨refused_suffix hf h, h'⟩)
  · exact .inr (.inr ⟨refused_suffix hf h, h'⟩)

/-- How an event may end. -/
def Follows [StdSort] (lost : Nat) (pwd : Str) (c : Ctx) (es : List Event) (t : Server) (log : List Piece) (e : Event) (f g : Supply) :
    Option Next → Prop
  | none => step t e = none
  | some (.done s') => ∃ t' log', SRel s' t' ∧ ScarceExplains lost pwd c (es ++ [e]) t' (log ++ log') ∧ ∀ q ∈ log', q.memory = f
  | some .dies => EndsProcess t e f g
  | some .unspecified => Unsorted t e f
  | some .ub => Undefined t e

theorem follows_other [StdSort] {lost : Nat} {pwd : Str} {c : Ctx} {es : List Event} {t t' : Server} {log : List Piece} {s' : SServer}
    (h : ScarceExplains lost pwd c es t log) {e : Event} {f g : Supply} (hne : ∀ i, e ≠ .read i) (hst : step t e = some (.done t'))
    (hr : SRel s' t') : Follows lost pwd c es t log e f g (some (.done s')) :=
  ⟨t', [], hr, by rw [List.append_nil]; exact scarceExplains_other h hne hst, by simp⟩

theorem follows_allocating [StdSort] {lost : Nat} {pwd : Str} {c : Ctx} {es : List Event} {t t' : Server} {log : List Piece} {s' : SServer}
    (h : ScarceExplains lost pwd c es t log) {e : Event} {f g : Supply} (hne : ∀ i, e ≠ .read i) (hst : step t e = some (.done t'))
    (hr : SRel s' t') (he : e = .accept ∨ (∃ i bytes, e = .recv i bytes) ∨ ∃ i, e = .wrote i) :
    Follows lost pwd c es t log e f g (some (Scarce.allocating f s')) := by
  unfold Scarce.allocating
  rcases e1 : (Scarce.ask f).1 with _ | k
  · exact follows_other h hne hst hr
  · exact .inl ⟨ask_fst e1, he⟩

theorem scarce_step [PosSort] {lost : Nat} {pwd : Str} {c : Ctx} {es : List Event} {s : SServer} {t : Server} {log : List Piece}
    (hc : @Reachable Heap.stdSortOf c) (h : @ScarceExplains Heap.stdSortOf lost pwd c es t log) (hr : SRel s t) (e : Event) (f g : Supply) :
    @Follows Heap.stdSortOf lost pwd c es t log e f g (Scarce.step lost s e f g) := by
  letI := Heap.stdSortOf
  obtain ⟨hpwd, hctx, hconns, hacc⟩ := hr
  cases e with
  | accept =>
    simp only [Scarce.step]
    split
    · rename_i ha
      exact follows_allocating (t' := { t with conns := t.conns ++ [Conn.init t.pwd] }) h (by simp) (by simp only [step]; rw [if_pos (hacc ▸ ha)]) ⟨hpwd, hctx, by simp [hconns, hpwd], hacc⟩ (.inl rfl)
    · rename_i ha
      simp only [Follows, step]
      rw [if_neg (hacc ▸ ha)]
  | acceptErr =>
    simp only [Scarce.step]
    split
    · rename_i ha
      exact follows_other (t' := { t with accepting := false }) h (by simp) (by simp only [step]; rw [if_pos (hacc ▸ ha)]) ⟨hpwd, hctx, hconns, rfl⟩
    · rename_i ha
      simp only [Follows, step]
      rw [if_neg (hacc ▸ ha)]
  | recv i b =>
    simp only [Scarce.step]
    rw [hconns]
    rcases hk : t.conns[i]? with _ | k
    · simp only [Follows, step, hk]
    · simp only
      split
      · rename_i hp; simp only [Follows, step, hk, if_pos hp]
      · rename_i hp
        exact follows_allocating (t' := { t with conns := t.conns.set i { k with inbuf := k.inbuf ++ b } }) h (by simp)
          (by simp only [step, hk]; rw [if_neg hp]) ⟨hpwd, hctx, rfl, hacc⟩ (.inr (.inl ⟨_, _, rfl⟩))
  | readErr i =>
    simp only [Scarce.step]
    rw [hconns]
    rcases hk : t.conns[i]? with _ | k
    · simp only [Follows, step, hk]
    · simp only
      split
      · rename_i hp
        exact follows_other (t' := { t with conns := t.conns.set i { k with phase := .dead } }) h (by simp)
          (by simp only [step, hk]; rw [if_pos hp]) ⟨hpwd, hctx, rfl, hacc⟩
      · rename_i hp; simp only [Follows, step, hk, if_neg hp]
  | wrote i =>
    simp only [Scarce.step]
    rw [hconns]
    rcases hk : t.conns[i]? with _ | k
    · simp only [Follows, step, hk]
    · simp only
      cases hp : k.phase with
      | reading => simp only [Follows, step, hk, hp]
      | dead => simp only [Follows, step, hk, hp]
      | writing r =>
        simp only
        split
        · rename_i hl
          exact follows_allocating (t' := { t with conns := t.conns.set i { k with phase := .reading, out := k.out ++ (r ++ [10]) } }) h (by simp)
            (by simp only [step, hk, hp]; rw [if_pos hl]) ⟨hpwd, hctx, rfl, hacc⟩ (.inr (.inr ⟨_, rfl⟩))
        · rename_i hl; simp only [Follows, step, hk, hp, if_neg hl]
  | wroteShort i =>
    simp only [Scarce.step]
    rw [hconns]
    rcases hk : t.conns[i]? with _ | k
    · simp only [Follows, step, hk]
    · simp only
      cases hp : k.phase with
      | reading => simp only [Follows, step, hk, hp]
      | dead => simp only [Follows, step, hk, hp]
      | writing r => exact .inl ⟨_, rfl⟩
  | writeErr i =>
    simp only [Scarce.step]
    rw [hconns]
    rcases hk : t.conns[i]? with _ | k
    · simp only [Follows, step, hk]
    · simp only
      cases hp : k.phase with
      | reading => simp only [Follows, step, hk, hp]
      | dead => simp only [Follows, step, hk, hp]
      | writing r =>
        exact follows_other (t' := { t with conns := t.conns.set i { k with phase := .dead } }) h (by simp)
          (by simp only [step, hk, hp]) ⟨hpwd, hctx, rfl, hacc⟩
  | read i =>
    simp only [Scarce.step]
    rw [hconns]
    rcases hk : t.conns[i]? with _ | k
    · simp only [Follows, step, hk]
    · simp only
      split
      · rename_i hp
        rcases hl : splitLine k.inbuf with _ | ⟨line, rest⟩
        · simp only [Follows, step, hk, if_pos hp, hl]
        · simp only
          obtain ⟨hb, hnl⟩ := splitLine_some hl
          obtain ⟨sk, h1, h2⟩ := getLine_taken (lost := lost) (rest := rest) (f := f) hnl
          generalize Scarce.getLine lost line rest (Scarce.ask f).1 = p at h1 h2
          obtain ⟨piece, left⟩ := p
          simp only at h1 h2 ⊢
          have hb' := hb.trans h1
          have hpre : piece <+: k.inbuf := ⟨sk ++ left, by rw [hb', List.append_assoc]⟩
          have hf0 : (Scarce.ask f).2 <:+ f := Scarce.ask_suffix f
          have hi := scarceSerial_inv hc h.serial
          unfold Scarce.handleLine
          obtain ⟨a, f', ea, hs, hc1, hc2⟩ := actorOf_cases piece (Scarce.ask f).2
          rw [ea]
          simp only
          by_cases hg : (k.sess.authed || isConnection a) = true
          · rw [if_pos hg]
            have hg' : k.sess.authed = true ∨ ToConnection piece := by
              rcases Bool.or_eq_true_iff.1 hg with hg | hg
              · exact .inl hg
              · exact .inr (hc1 hg)
            have hex : Executes t (.read i) k piece := ⟨i, rfl, hk, hpre, hg'⟩
            have hsound := Scarce.execute_sound s.pwd hctx hi (some k.sess) piece f'
            have hsf := hs.trans hf0
            generalize Scarce.execute s.pwd s.ctx (some k.sess) piece f' = y at hsound
            rw [hpwd] at hsound
            have noub : ∀ {c1 : Ctx} {n : Str} {x : Inst}, Inv c1 → ∀ {m l}, Statement piece n m l → Holds c1 n x → k.sess.authed = true := by
              intro c1 n x hi m l hst hn
              rcases hg' with hg | ⟨m', l', hst'⟩
              · exact hg
              · exact absurd ((statement_same hst hst').1 ▸ ((hi.vars _ (lookup_some_mem hn)).1)) actor_connection_not_variable
            cases y with
            | done h' s' r =>
              obtain ⟨c', hst, hsc⟩ := hsound
              obtain ⟨t1, rfl, -⟩ := scarcely_session hi hsc
              have := (scarceExplains_read hc h (q := ⟨⟨i, piece, r⟩, sk, f⟩) hk hp hb' h2).1 hg' (c' := c') (t := t1)
                (h.password ▸ scarcely_mono (refused_suffix hsf) hsc)
              simp only
              split
              · rename_i htc
                unfold Scarce.reply
                rcases e1 : (Scarce.ask g).1 with _ | k'
                · rw [if_pos htc] at this
                  exact ⟨_, [_], by refine ⟨hpwd, hst, ?_, hacc⟩; simp only [hconns], this, by simp⟩
                · exact .inr (.inl ⟨ask_fst e1, i, rfl⟩)
              · rename_i htc
                rw [if_neg htc] at this
                exact ⟨_, [_], by refine ⟨hpwd, hst, ?_, hacc⟩; simp only [hconns], this, by simp⟩
            | dies => exact .inr (.inr ⟨k, piece, hex, fatal_mono hsf hsound⟩)
            | unspecified =>
              obtain ⟨h3, n, x, hst, hn, -, -, ty, x', y, l, rfl⟩ := hsound
              have hw := hi.wellTyped hn
              have ht := (hw.2 (.string x') (by simp)).1
              have hty := (hw.2 y (by simp)).1
              obtain rfl : b!"String" = ty := ht
              cases y with
              | string y => exact ⟨refused_suffix hsf h3, k, piece, n, _, _, _, hex, noub hi hst hn, hst, hn⟩
              | _ => simp [Obj.type] at hty
            | ub =>
              refine .inr ⟨k, piece, hex, ?_, undefined_cause hi hsound⟩
              rcases hg' with hg | ⟨n, l, hst⟩
              · exact hg
              · obtain ⟨t1, e1⟩ := toConnection_reply (pwd := t.pwd) t.ctx k.sess hst
                have hsound : execute t.pwd t.ctx (some k.sess) piece = .ub := hsound
                rw [e1] at hsound; cases hsound
          · rw [if_neg hg]
            simp only [Bool.or_eq_true, not_or, Bool.not_eq_true] at hg
            have := (scarceExplains_read hc h (q := ⟨⟨i, piece, Exc.notAuthenticated.text⟩, sk, f⟩) hk hp hb' h2).2 (by simp [hg.1])
              (fun hto => refused_suffix hf0 (hc2 hto hg.2)) rfl
            unfold Scarce.reply
            rcases e1 : (Scarce.ask g).1 with _ | k'
            · exact ⟨_, [_], by refine ⟨hpwd, hctx, ?_, hacc⟩; simp only [hconns], this, by simp⟩
            · exact .inr (.inl ⟨ask_fst e1, i, rfl⟩)
      · rename_i hp; simp only [Follows, step, hk, if_neg hp]

theorem scarceExplains_init [StdSort] (lost : Nat) (pwd : Str) (c : Ctx) : ScarceExplains lost pwd c [] (Server.init pwd c) [] :=
  ⟨.nil, by simp, by simp, rfl, by simp [Server.init], by simp [received], by simp [Server.init], by simp [Server.init],
    by simp [Server.init], by simp [Server.init]⟩

/-! ### Enough memory -/

/-- The same outcome. -/
def SameNext : Option Next → Option (Outcome Server) → Prop
  | none, none => True
  | some (.done s), some (.done t) => SRel s t
  | some .ub, some .ub => True
  | _, _ => False

theorem ask_enough {f : Supply} (h : ¬ Refused f) : (Scarce.ask f).1 = none := by
  rcases e : (Scarce.ask f).1 with _ | k
  · rfl
  · exact absurd (ask_fst e) h

theorem scarce_enough [PosSort] {lost : Nat} {s : SServer} {t : Server} (hi : Inv t.ctx) (hr : SRel s t) (e : Event) {f g : Supply}
    (hf : ¬ Refused f) (hg : ¬ Refused g) : SameNext (Scarce.step lost s e f g) (@step Heap.stdSortOf t e) := by
  letI := Heap.stdSortOf
  have hf2 : ¬ Refused (Scarce.ask f).2 := fun h => hf (refused_suffix (Scarce.ask_suffix f) h)
  obtain ⟨hpwd, hctx, hconns, hacc⟩ := hr
  cases e with
  | accept =>
    simp only [Scarce.step, step, hacc, Scarce.allocating, ask_enough hf]
    split
    · exact ⟨hpwd, hctx, by simp [hconns, hpwd], rfl⟩
    · trivial
  | acceptErr =>
    simp only [Scarce.step, step, hacc]
    split
    · exact ⟨hpwd, hctx, hconns, rfl⟩
    · trivial
  | recv i b =>
    simp only [Scarce.step, step, hconns, Scarce.allocating, ask_enough hf]
    rcases hk : t.conns[i]? with _ | k
    · trivial
    · simp only
      split
      · trivial
      · exact ⟨hpwd, hctx, rfl, hacc⟩
  | readErr i =>
    simp only [Scarce.step, step, hconns]
    rcases hk : t.conns[i]? with _ | k
    · trivial
    · simp only
      split
      · exact ⟨hpwd, hctx, rfl, hacc⟩
      · trivial
  | wrote i =>
    simp only [Scarce.step, step, hconns, Scarce.allocating, ask_enough hf]
    rcases hk : t.conns[i]? with _ | k
    · trivial
    · simp only
      cases hp : k.phase with
      | reading => trivial
      | dead => trivial
      | writing r =>
        simp only
        split
        · exact ⟨hpwd, hctx, rfl, hacc⟩
        · trivial
  | wroteShort i =>
    simp only [Scarce.step, step, hconns]
    rcases hk : t.conns[i]? with _ | k
    · trivial
    · simp only
      cases hp : k.phase <;> trivial
  | writeErr i =>
    simp only [Scarce.step, step, hconns]
    rcases hk : t.conns[i]? with _ | k
    · trivial
    · simp only
      cases hp : k.phase with
      | reading => trivial
      | dead => trivial
      | writing r => exact ⟨hpwd, hctx, rfl, hacc⟩
  | read i =>
    simp only [Scarce.step, step, hconns]
    rcases hk : t.conns[i]? with _ | k
    · trivial
    · simp only
      split
      · rcases hl : splitLine k.inbuf with _ | ⟨line, rest⟩
        · trivial
        · simp only [ask_enough hf, Scarce.getLine]
          unfold Scarce.handleLine
          obtain ⟨a, f', ea, hs, hc1, hc2⟩ := actorOf_cases line (Scarce.ask f).2
          rw [ea]
          simp only
          have hto : isConnection a = true ↔ ToConnection line := by
            refine ⟨hc1, fun h => ?_⟩
            cases h1 : isConnection a
            · exact absurd (hc2 h h1) hf2
            · rfl
          have hguard : (k.sess.authed || isConnection a) = true ↔ k.sess.authed = true ∨ ToConnection line := by
            rw [← hto]; exact Bool.or_eq_true_iff
          have hf3 : ¬ Refused f' := fun h => hf2 (refused_suffix hs h)
          have hsound := Scarce.execute_sound s.pwd hctx hi (some k.sess) line f'
          generalize Scarce.execute s.pwd s.ctx (some k.sess) line f' = y at hsound
          rw [hpwd] at hsound
          rcases handleLine_cases t i k line rest _ rfl hi with ⟨h1, h2, h3⟩ | ⟨h1, h2, h3⟩ | ⟨h1, c', t1, r, h2, h3⟩ <;> rw [h3]
          · rw [if_neg (fun h => (hguard.1 h).elim h1 h2)]
            unfold Scarce.reply
            rw [ask_enough hg]
            exact ⟨hpwd, hctx, by simp only [hconns]; rfl, hacc⟩
          · rw [if_pos (hguard.2 h1)]
            cases y with
            | done h' s' r =>
              obtain ⟨c', -, hsc⟩ := hsound
              cases hsc with
              | ordinary e => rw [h2] at e; cases e
              | cut h => exact absurd h hf3
              | nothing h => exact absurd h hf3
              | interrupted h => exact absurd h hf3
            | dies => exact absurd (fatal_refused hsound) hf3
            | unspecified => exact absurd hsound.1 hf3
            | ub => trivial
          · rw [if_pos (hguard.2 h1)]
            cases y with
            | done h' s' r' =>
              obtain ⟨c1, hst, hsc⟩ := hsound
              cases hsc with
              | ordinary e =>
                rw [h2] at e; cases e
                simp only
                split
                · rename_i htc
                  unfold Scarce.reply
                  rw [ask_enough hg]
                  exact ⟨hpwd, hst, by simp only [hconns, if_pos htc], hacc⟩
                · rename_i htc
                  exact ⟨hpwd, hst, by simp only [hconns, if_neg htc], hacc⟩
              | cut h => exact absurd h hf3
              | nothing h => exact absurd h hf3
              | interrupted h => exact absurd h hf3
            | dies => exact absurd (fatal_refused hsound) hf3
            | unspecified => exact absurd hsound.1 hf3
            | ub =>
              have hsound : execute t.pwd t.ctx (some k.sess) line = .ub := hsound
              rw [h2] at hsound; cases hsound
      · trivial

theorem scarce_run [PosSort] {lost : Nat} {pwd : Str} {c : Ctx} {es : List Event} {s s' : SServer} {t : Server} {log : List Piece}
    (hc : @Reachable Heap.stdSortOf c) (h : @ScarceExplains Heap.stdSortOf lost pwd c es t log) (hr : SRel s t)
    {xs : List (Event × Supply × Supply)} (hrun : Scarce.run lost s xs = some (.done s')) :
    ∃ t' log', SRel s' t' ∧ @ScarceExplains Heap.stdSortOf lost pwd c (es ++ xs.map (·.1)) t' (log ++ log') ∧
      ∀ q ∈ log', ∃ e g, (e, q.memory, g) ∈ xs := by
  letI := Heap.stdSortOf
  induction xs generalizing es s t log with
  | nil => cases hrun; exact ⟨t, [], hr, by simpa using h, by simp⟩
  | cons x xs ih =>
    obtain ⟨e, f, g⟩ := x
    simp only [Scarce.run] at hrun
    have h1 := scarce_step hc h hr e f g
    generalize Scarce.step lost s e f g = y at h1 hrun
    match y, hrun with
    | some (.done s1), hrun =>
      obtain ⟨t1, l1, h2, h3, h4⟩ := h1
      obtain ⟨t2, l2, h5, h6, h7⟩ := ih h3 h2 hrun
      refine ⟨t2, l1 ++ l2, h5, by simpa using h6, fun q hq => ?_⟩
      rcases List.mem_append.1 hq with hq | hq
      · exact ⟨e, g, by rw [h4 q hq]; exact List.mem_cons_self⟩
      · obtain ⟨e', g', h8⟩ := h7 q hq
        exact ⟨e', g', List.mem_cons_of_mem _ h8⟩

end Knuckle
