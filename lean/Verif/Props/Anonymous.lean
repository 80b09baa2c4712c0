/-
C40, C41, C45 in terms of the events of the server only.
-/
import Verif.Props.Server
import Verif.Spec.Anonymous

namespace Knuckle.Props

open Spec

variable {pwd : Str} {c c' : Ctx} {s s' t : Server} {i : Nat} {es es' : List Event} {log : List Request} {k : Conn}

theorem sent_lines [StdSort] (h : Explains pwd c es s log) (hk : s.conns[i]? = some k) {q : Request} (hq : q ∈ log) (hi : q.conn = i) :
    Sent i es q.line := by
  obtain ⟨l, l', e⟩ : ∃ l l', requestsOf i log = l ++ q :: l' := List.append_of_mem (List.mem_filter.2 ⟨hq, by simp [hi]⟩ : q ∈ requestsOf i log)
  refine ⟨l.map Request.line, wire (l'.map Request.line) ++ k.inbuf, ?_, h.oneLine q hq⟩
  rw [h.input i k hk, e]; simp [wire]

/-- C41: on a server with a password, a connection is authenticated only if it has sent a line that presents the password. -/
theorem C41_server [StdSort] (hc : Reachable c) (h : run (Server.init pwd c) es = some (.done s)) (hk : s.conns[i]? = some k)
    (ha : k.sess.authed = true) : pwd = [] ∨ ∃ line, Sent i es line ∧ Presents pwd line := by
  obtain ⟨log, hl⟩ := C44_serialized hc h
  rcases (hl.session i k hk).1.1 ha with h1 | ⟨q, hq, hi, hp⟩
  · exact .inl h1
  · exact .inr ⟨_, sent_lines hl hk hq hi, hp⟩

theorem step_own [StdSort] {e : Event} (he : AtConn i e = true) (hi : Inv s.ctx) (hst : step s e = some (.done s'))
    (hn : ∀ k, s.conns[i]? = some k → k.sess.authed = false) : SameFor i s s' := by
  have upd : ∀ (k : Conn) (c' : Ctx), SameData s.ctx c' → SameFor i s { s with ctx := c', conns := s.conns.set i k } := fun k c' h =>
    ⟨h, rfl, by simp, fun j hj => List.getElem?_set_ne (Ne.symm hj)⟩
  have same : SameData s.ctx s.ctx := ⟨rfl, rfl⟩
  cases e with
  | accept => cases he
  | acceptErr => cases he
  | recv j b =>
    obtain rfl : j = i := by simpa [AtConn] using he
    simp only [step] at hst
    split at hst
    · split at hst
      · cases hst
      · cases hst; exact upd _ _ same
    · cases hst
  | read j =>
    obtain rfl : j = i := by simpa [AtConn] using he
    simp only [step] at hst
    split at hst
    · rename_i k hk
      split at hst
      · split at hst
        · rename_i line rest _
          rcases handleLine_cases s j k line rest _ rfl hi with ⟨_, _, h3⟩ | ⟨_, _, h3⟩ | ⟨h1, c', t, r, h2, h3⟩ <;>
            rw [h3] at hst <;> cases hst
          · exact upd _ _ same
          · exact upd _ _ (toConnection_sameData (h1.resolve_left (by rw [hn k hk]; decide)) h2)
        · cases hst
      · cases hst
    · cases hst
  | readErr j =>
    obtain rfl : j = i := by simpa [AtConn] using he
    simp only [step] at hst
    split at hst
    · split at hst
      · cases hst; exact upd _ _ same
      · cases hst
    · cases hst
  | wrote j =>
    obtain rfl : j = i := by simpa [AtConn] using he
    simp only [step] at hst
    split at hst
    · split at hst
      · split at hst
        · cases hst; exact upd _ _ same
        · cases hst
      · cases hst
    · cases hst
  | wroteShort j =>
    simp only [step] at hst
    split at hst
    · split at hst <;> cases hst
    · cases hst
  | writeErr j =>
    obtain rfl : j = i := by simpa [AtConn] using he
    simp only [step] at hst
    split at hst
    · split at hst
      · cases hst; exact upd _ _ same
      · cases hst
    · cases hst

theorem sameFor_set {j : Nat} {k : Conn} {a b : Ctx} (h : SameFor i s t) (hd : SameData a b) :
    SameFor i { s with ctx := a, conns := s.conns.set j k } { t with ctx := b, conns := t.conns.set j k } := by
  obtain ⟨_, h2, h3, h4⟩ := h
  refine ⟨hd, h2, by simpa using h3, fun m hm => ?_⟩
  simp only [List.getElem?_set, h3, h4 m hm]

theorem step_other [StdSort] {e : Event} (he : AtConn i e = false) (hi : Inv s.ctx) (hj : Inv t.ctx) (hp : t.pwd = s.pwd)
    (hR : SameFor i s t) (hst : step s e = some (.done s')) : ∃ t', step t e = some (.done t') ∧ SameFor i s' t' ∧ t'.pwd = s'.pwd := by
  cases e with
  | accept =>
    simp only [step, hR.2.1] at hst ⊢
    split at hst
    · rename_i ha
      cases hst
      refine ⟨_, if_pos ha, ⟨hR.1, rfl, by simp [hR.2.2.1], fun j hj => ?_⟩, hp⟩
      simp only [List.getElem?_append, hR.2.2.1, hR.2.2.2 j hj, hp]
    · cases hst
  | acceptErr =>
    simp only [step, hR.2.1] at hst ⊢
    split at hst
    · rename_i ha
      cases hst
      exact ⟨_, if_pos ha, ⟨hR.1, rfl, hR.2.2.1, hR.2.2.2⟩, hp⟩
    · cases hst
  | recv j b =>
    have hj : j ≠ i := by simpa [AtConn] using he
    simp only [step, hR.2.2.2 j hj] at hst ⊢
    split at hst
    · split at hst
      · cases hst
      · rename_i h; cases hst; exact ⟨_, if_neg h, sameFor_set hR hR.1, hp⟩
    · cases hst
  | read j =>
    have hj' : j ≠ i := by simpa [AtConn] using he
    simp only [step, hR.2.2.2 j hj'] at hst ⊢
    split at hst
    · rename_i k hk
      split at hst
      · rename_i hph
        rw [if_pos hph]
        split at hst
        · rename_i line rest _
          rcases handleLine_cases s j k line rest _ rfl hi with ⟨h1, h2, h3⟩ | ⟨_, _, h3⟩ | ⟨h1, c', z, r, h2, h3⟩ <;>
            rw [h3] at hst <;> cases hst <;>
            rcases handleLine_cases t j k line rest _ rfl hj with ⟨g1, g2, g3⟩ | ⟨g1, g2, g3⟩ | ⟨g1, d', z', r', g2, g3⟩ <;> rw [g3]
          · exact ⟨_, rfl, sameFor_set hR hR.1, hp⟩
          · exact (g1.elim h1 h2).elim
          · exact (g1.elim h1 h2).elim
          · exact (h1.elim g1 g2).elim
          · rw [hp] at g2
            have := execute_sameData s.pwd (some k.sess) line hR.1
            rw [h2, g2] at this; exact this.elim
          · rw [hp] at g2
            have := execute_sameData s.pwd (some k.sess) line hR.1
            rw [h2, g2] at this
            obtain ⟨e1, e2, e3⟩ := this
            cases e2; cases e3
            exact ⟨_, rfl, sameFor_set hR e1, hp⟩
        · cases hst
      · cases hst
    · cases hst
  | readErr j =>
    have hj : j ≠ i := by simpa [AtConn] using he
    simp only [step, hR.2.2.2 j hj] at hst ⊢
    split at hst
    · split at hst
      · rename_i h; cases hst; exact ⟨_, if_pos h, sameFor_set hR hR.1, hp⟩
      · cases hst
    · cases hst
  | wrote j =>
    have hj : j ≠ i := by simpa [AtConn] using he
    simp only [step, hR.2.2.2 j hj] at hst ⊢
    split at hst
    · split at hst
      · split at hst
        · rename_i h; cases hst; exact ⟨_, if_pos h, sameFor_set hR hR.1, hp⟩
        · cases hst
      · cases hst
    · cases hst
  | wroteShort j =>
    simp only [step] at hst
    split at hst
    · split at hst <;> cases hst
    · cases hst
  | writeErr j =>
    have hj : j ≠ i := by simpa [AtConn] using he
    simp only [step, hR.2.2.2 j hj] at hst ⊢
    split at hst
    · split at hst
      · cases hst; exact ⟨_, rfl, sameFor_set hR hR.1, hp⟩
      · cases hst
    · cases hst

theorem never_authenticated [StdSort] (h : Explains pwd c es s log) (hp : pwd ≠ [])
    (hn : ∀ k, s.conns[i]? = some k → k.sess.authed = false) : ¬ Authenticated pwd log i := by
  rintro (h1 | ⟨q, hq, hi, hpr⟩)
  · exact hp h1
  · have hlt := h.known q hq
    rw [hi] at hlt
    have hk := List.getElem?_eq_getElem hlt
    have := (h.session i _ hk).1.2 (.inr ⟨q, hq, hi, hpr⟩)
    rw [hn _ hk] at this; cases this

theorem without_snoc (i : Nat) (es : List Event) (e : Event) :
    without i (es ++ [e]) = without i es ++ (if AtConn i e then [] else [e]) := by
  unfold without; rw [List.filter_append]; congr 1; cases h : AtConn i e <;> simp [h]

theorem purge_run [StdSort] (hc : Reachable c) (hp : pwd ≠ []) : ∀ {es : List Event} {s : Server},
    run (Server.init pwd c) es = some (.done s) → (∀ k, s.conns[i]? = some k → k.sess.authed = false) →
    ∃ t, run (Server.init pwd c) (without i es) = some (.done t) ∧ SameFor i s t ∧ t.pwd = s.pwd := by
  intro es
  induction es using List.reverseRecOn with
  | nil =>
    intro s h _
    cases h
    exact ⟨_, rfl, ⟨⟨rfl, rfl⟩, rfl, rfl, fun _ _ => rfl⟩, rfl⟩
  | append_singleton es e ih =>
    intro s h hn
    rw [run_append] at h
    cases h0 : run (Server.init pwd c) es with
    | none => rw [h0] at h; cases h
    | some o =>
      cases o with
      | ub => rw [h0] at h; cases h
      | done s0 =>
        rw [h0] at h
        simp only [run_single] at h
        obtain ⟨log, hl⟩ := C44_serialized hc h0
        obtain ⟨log', hl'⟩ := explains_step hc hl h
        have hna : ¬ Authenticated pwd log i := fun ha => never_authenticated hl' hp hn ((C41_kept_and_own (i := i)).1 ha)
        have hn0 : ∀ k, s0.conns[i]? = some k → k.sess.authed = false := by
          intro k hk
          cases ha : k.sess.authed with
          | false => rfl
          | true => exact absurd ((hl.session i k hk).1.1 ha) hna
        obtain ⟨t, ht, hR, hpw⟩ := ih h0 hn0
        have hi := reachable_inv (serial_reachable hc hl.serial)
        rw [without_snoc]
        cases he : AtConn i e with
        | true =>
          obtain ⟨h1, h2, h3, h4⟩ := step_own he hi h hn0
          refine ⟨t, by simpa using ht, ⟨sameData_trans (sameData_symm h1) hR.1, hR.2.1.trans h2.symm, hR.2.2.1.trans h3.symm,
            fun j hj => (hR.2.2.2 j hj).trans (h4 j hj).symm⟩, ?_⟩
          rw [hpw, hl.password, hl'.password]
        | false =>
          obtain ⟨logt, hlt⟩ := C44_serialized hc ht
          obtain ⟨t', ht', hR'⟩ := step_other he hi (reachable_inv (serial_reachable hc hlt.serial)) hpw hR h
          refine ⟨t', ?_, hR'⟩
          rw [run_append, ht]; simpa [run_single] using ht'

/-- C40: on a server with a password, as long as connection `i` does not send a line that presents the password, everything it
sends, and when, makes no difference to the variables, the settings and what any other connection receives: they are what they
would be had nothing happened at that connection. -/
theorem C40_server [StdSort] (hc : Reachable c) (hp : pwd ≠ []) (h : run (Server.init pwd c) es = some (.done s))
    (hn : ∀ line, Sent i es line → ¬ Presents pwd line) :
    ∃ s', run (Server.init pwd c) (without i es) = some (.done s') ∧ SameFor i s s' := by
  obtain ⟨t, ht, hR, _⟩ := purge_run (i := i) hc hp h fun k hk => by
    cases ha : k.sess.authed with
    | false => rfl
    | true =>
      rcases C41_server hc h hk ha with h1 | ⟨line, h1, h2⟩
      · exact absurd h1 hp
      · exact absurd h2 (hn line h1)
  exact ⟨t, ht, hR⟩

theorem lines_prefix {a b : List Str} {x y : Str} (ha : ∀ l ∈ a, (10 : Byte) ∉ l) (hb : ∀ l ∈ b, (10 : Byte) ∉ l)
    (h : wire a ++ x <+: wire b ++ y) : a <+: b ∨ b <+: a := by
  have cons : ∀ (l : Str) (ls : List Str) (z : Str), wire (l :: ls) ++ z = l ++ 10 :: (wire ls ++ z) := by intro l ls z; simp [wire]
  induction a generalizing b with
  | nil => exact .inl (List.nil_prefix)
  | cons l ls ih =>
    cases b with
    | nil => exact .inr (List.nil_prefix)
    | cons m ms =>
      rw [cons, cons] at h
      obtain ⟨z, hz⟩ := h
      have e1 := splitLine_append l (wire ls ++ x ++ z) (ha l (by simp))
      have e2 := splitLine_append m (wire ms ++ y) (hb m (by simp))
      rw [← hz] at e2
      simp only [List.append_assoc, List.cons_append] at e1 e2
      rw [e1] at e2
      obtain ⟨e3, e4⟩ := Prod.mk.inj (Option.some.inj e2)
      rw [e3]
      rcases ih (b := ms) (fun w hw => ha w (by simp [hw])) (fun w hw => hb w (by simp [hw])) ⟨z, by simpa using e4⟩ with h | h
      · exact .inl (List.cons_prefix_cons.2 ⟨rfl, h⟩)
      · exact .inr (List.cons_prefix_cons.2 ⟨rfl, h⟩)

theorem replies_prefix {A B : List Request} (h : A.map Request.line <+: B.map Request.line)
    (hr : ∀ q ∈ A, ∀ q' ∈ B, q.line = q'.line → q.reply = q'.reply) : A.map Request.reply <+: B.map Request.reply := by
  induction A generalizing B with
  | nil => exact List.nil_prefix
  | cons a A ih =>
    cases B with
    | nil => simp at h
    | cons b B =>
      simp only [List.map_cons, List.cons_prefix_cons] at h ⊢
      exact ⟨hr a (by simp) b (by simp) h.1, ih h.2 fun q hq q' hq' => hr q (by simp [hq]) q' (by simp [hq'])⟩

theorem wire_prefix {a b : List Str} (h : a <+: b) : wire a <+: wire b := by
  obtain ⟨z, rfl⟩ := h; exact ⟨wire z, by simp [wire]⟩

theorem take_comparable {α : Type} {a b : List α} (h : a <+: b) (n m : Nat) : a.take n <+: b.take m ∨ b.take m <+: a.take n := by
  have h1 : a.take n <+: b := (List.take_prefix _ _).trans h
  have h2 : b.take m <+: b := List.take_prefix _ _
  exact List.prefix_or_prefix_of_prefix h1 h2

/-- C40: and what connection `i` itself receives depends only on the password and on what it sends: on two servers with the same
password, whatever they hold, whatever other connections do there, one of the two received texts begins with the other (they may
differ in how many replies have been written so far). -/
theorem C40_only_its_own_bytes [StdSort] {c1 c2 : Ctx} {es1 es2 : List Event} {s1 s2 : Server} {j : Nat} {k1 k2 : Conn}
    (hc1 : Reachable c1) (hc2 : Reachable c2) (hp : pwd ≠ []) (h1 : run (Server.init pwd c1) es1 = some (.done s1))
    (h2 : run (Server.init pwd c2) es2 = some (.done s2)) (hk1 : s1.conns[i]? = some k1) (hk2 : s2.conns[j]? = some k2)
    (hr : received i es1 <+: received j es2) (hn : ∀ line, Sent j es2 line → ¬ Presents pwd line) :
    k1.out <+: k2.out ∨ k2.out <+: k1.out := by
  obtain ⟨l1, hs1, hi1, ho1, n1, e1, _⟩ := C43_answered_in_order hc1 h1 hk1
  obtain ⟨l2, hs2, hi2, ho2, n2, e2, _⟩ := C43_answered_in_order hc2 h2 hk2
  have na : ∀ {l : List Request} {m : Nat} {rest : Str}, (∃ z, received j es2 = wire ((requestsOf m l).map Request.line) ++ (rest ++ z)) →
      (∀ q ∈ l, (10 : Byte) ∉ q.line) → ¬ Authenticated pwd l m := by
    rintro l m rest ⟨z, hi⟩ ho (h | ⟨q, hq, hqi, hpr⟩)
    · exact hp h
    · obtain ⟨a, b, e⟩ : ∃ a b, requestsOf m l = a ++ q :: b := List.append_of_mem (List.mem_filter.2 ⟨hq, by simp [hqi]⟩)
      refine hn q.line ⟨a.map Request.line, wire (b.map Request.line) ++ (rest ++ z), ?_, ho q hq⟩ hpr
      rw [hi, e]; simp [wire]
  have na2 : ¬ Authenticated pwd l2 j := na (rest := k2.inbuf) ⟨[], by simpa using hi2⟩ ho2
  have na1 : ¬ Authenticated pwd l1 i := by
    obtain ⟨z, hz⟩ := hr
    exact na (rest := k1.inbuf) ⟨z, by rw [← hz, hi1]; simp⟩ ho1
  have lines : ∀ {l : List Request} {m : Nat}, (∀ q ∈ l, (10 : Byte) ∉ q.line) → ∀ x ∈ (requestsOf m l).map Request.line, (10 : Byte) ∉ x := by
    intro l m ho x hx
    obtain ⟨q, hq, rfl⟩ := List.mem_map.1 hx
    exact ho q (List.mem_of_mem_filter hq)
  have same : ∀ q ∈ requestsOf i l1, ∀ q' ∈ requestsOf j l2, q.line = q'.line → q.reply = q'.reply := by
    intro q hq q' hq' e
    obtain ⟨m1, c1⟩ := List.mem_filter.1 hq
    obtain ⟨m2, c2⟩ := List.mem_filter.1 hq'
    simp only [beq_iff_eq] at c1 c2
    obtain ⟨a, b, rfl⟩ := List.append_of_mem m1
    obtain ⟨a', b', rfl⟩ := List.append_of_mem m2
    exact C40_replies_do_not_depend_on_data hs1 hs2 (fun h => na1 (c1 ▸ (C41_kept_and_own (i := q.conn)).1 h))
      (fun h => na2 (c2 ▸ (C41_kept_and_own (i := q'.conn)).1 h)) e
  rw [hi1, hi2] at hr
  rw [e1, e2, List.map_take, List.map_take]
  rcases lines_prefix (lines ho1) (lines ho2) hr with h | h
  · rcases take_comparable (replies_prefix h same) n1 n2 with h | h
    · exact .inl (wire_prefix h)
    · exact .inr (wire_prefix h)
  · rcases take_comparable (replies_prefix h fun q hq q' hq' e => (same q' hq' q hq e.symm).symm) n2 n1 with h | h
    · exact .inr (wire_prefix h)
    · exact .inl (wire_prefix h)

/-- C45: when the handler takes the line `Connection close;` from a connection, nothing is written to that connection and no line
behind it is taken, whatever happens afterwards. -/
theorem C45_server [StdSort] {line rest : Str} (hc : Reachable c) (h : run (Server.init pwd c) es = some (.done s))
    (hk : s.conns[i]? = some k) (hl : k.inbuf = line ++ 10 :: rest) (hnl : (10 : Byte) ∉ line) (hcl : Closes line)
    (h' : run s (.read i :: es') = some (.done s')) :
    s'.conns[i]? = some { k with sess := { k.sess with connected := false }, inbuf := rest, phase := .dead } := by
  obtain ⟨log, hlog⟩ := C44_serialized hc h
  have hi := reachable_inv (serial_reachable hc hlog.serial)
  have hlt : i < s.conns.length := (List.getElem?_eq_some_iff.1 hk).1
  simp only [run] at h'
  cases hst : step s (.read i) with
  | none => rw [hst] at h'; cases h'
  | some o =>
    rw [hst] at h'
    cases o with
    | ub => cases h'
    | done s1 =>
      simp only at h'
      refine dead_run ?_ rfl h'
      simp only [step, hk, hl, splitLine_append line rest hnl] at hst
      split at hst
      · simp only [Option.some.injEq] at hst
        have e := execute_toConnection (pwd := s.pwd) s.ctx k.sess hcl
        have er : k.sess.receive s.pwd b!"close" [] = .ret { k.sess with connected := false } b!"null" := rfl
        rw [er] at e
        rcases handleLine_cases s i k line rest _ hst hi with ⟨_, h2, _⟩ | ⟨_, h2, _⟩ | ⟨_, c', t, r, h2, h3⟩
        · exact absurd ⟨_, _, hcl⟩ h2
        · rw [e] at h2; cases h2
        · rw [e] at h2
          simp only [onConn, finish, Outcome.done.injEq, Prod.mk.injEq, Option.some.injEq] at h2
          obtain ⟨rfl, rfl, rfl⟩ := h2
          cases h3
          simp [List.getElem?_set, hlt]
      · cases hst

/-- Client 0 asks for the value of a variable without presenting the password, while client 1 presents it. -/
def curiousEvents : List Event := [
  .accept, .accept, .recv 1 b!"Connection authenticateWithPassword: \"pw\";\n", .recv 0 b!"i get;\n", .read 1, .read 0, .wrote 0, .wrote 1]

theorem curious_run [StdSort] : run (Server.init b!"pw" demo) curiousEvents = some (.done ⟨b!"pw", demo,
    [⟨⟨true, false⟩, [], .reading, b!"AuthenticationError: not authenticated.\n"⟩, ⟨⟨true, true⟩, [], .reading, b!"null\n"⟩], true⟩) := by
  kernel_rfl

theorem curious_sent {line : Str} (h : Sent 0 curiousEvents line) : line = b!"i get;" := by
  obtain ⟨before, rest, h, hn⟩ := h
  have h : b!"i get;\n" = wire before ++ (line ++ 10 :: rest) := h
  cases before with
  | nil =>
    have e := splitLine_append line rest hn
    have h : b!"i get;\n" = line ++ 10 :: rest := h
    rw [← h] at e
    have e' : splitLine b!"i get;\n" = some (b!"i get;", []) := by decide
    rw [e'] at e
    simp only [Option.some.injEq, Prod.mk.injEq] at e
    exact e.1.symm
  | cons b bs =>
    exfalso
    have e := congrArg (List.count 10) h
    have e' : List.count 10 b!"i get;\n" = 1 := by decide
    rw [e'] at e
    simp [wire] at e
    omega

example [StdSort] : (∀ line, Sent 0 curiousEvents line → ¬ Presents b!"pw" line) ∧
    ∃ s', run (Server.init b!"pw" demo) (without 0 curiousEvents) = some (.done s') ∧ SameFor 0 ⟨b!"pw", demo,
      [⟨⟨true, false⟩, [], .reading, b!"AuthenticationError: not authenticated.\n"⟩, ⟨⟨true, true⟩, [], .reading, b!"null\n"⟩], true⟩ s' := by
  have hn : ∀ line, Sent 0 curiousEvents line → ¬ Presents b!"pw" line := by
    rintro line hl ⟨a, hs, _⟩
    rw [curious_sent hl] at hs
    have h' : Statement b!"i get;" b!"i" b!"get" [] := reads (by decide +kernel)
    exact absurd (statement_unique hs h').1 (by decide)
  exact ⟨hn, C40_server demo_reachable (by decide) curious_run hn⟩

end Knuckle.Props
