/-
C50 in terms of the events of the server only.
-/
import Verif.Props.Isolation
import Verif.Props.Guess
import Verif.Spec.Disjoint

namespace Knuckle.Props

open Spec

variable {pwd : Str} {c c' : Ctx} {s s' t : Server} {i : Nat} {es es' : List Event} {k : Conn} {S : Nat → Bool} {N : Str → Prop}

theorem among_snoc (S : Nat → Bool) (es : List Event) (e : Event) : among S (es ++ [e]) = among S es ++ among S [e] := by
  unfold among; rw [List.filter_append]

theorem splitLine_some {b line rest : Str} (h : splitLine b = some (line, rest)) : b = line ++ 10 :: rest ∧ (10 : Byte) ∉ line := by
  induction b generalizing line rest with
  | nil => cases h
  | cons x xs ih =>
    simp only [splitLine] at h
    split at h
    · rename_i hx
      cases h
      simp only [beq_iff_eq] at hx
      simp [hx]
    · rename_i hx
      cases h1 : splitLine xs with
      | none => rw [h1] at h; cases h
      | some p =>
        obtain ⟨l, r⟩ := p
        rw [h1] at h
        cases h
        obtain ⟨e, hn⟩ := ih h1
        refine ⟨by rw [e]; rfl, ?_⟩
        simp only [List.mem_cons, not_or]
        simp only [beq_iff_eq] at hx
        exact ⟨fun he => hx he.symm, hn⟩

theorem agreeOn_trans' {a b d : Ctx} (h : AgreeOn N a b) (h' : AgreeOn N b d) : AgreeOn N a d :=
  ⟨h.1.trans h'.1, fun n hn i => (h.2 n hn i).trans (h'.2 n hn i)⟩

theorem agreeOn_symm' {a b : Ctx} (h : AgreeOn N a b) : AgreeOn N b a := ⟨h.1.symm, fun n hn i => (h.2 n hn i).symm⟩

/-- An event at a connection outside `S`. -/
theorem step_outside [StdSort] {e : Event} (he : whose e = some i) (hS : S i = false) (hi : Inv s.ctx) (hst : step s e = some (.done s'))
    (hn : ∀ k line rest, s.conns[i]? = some k → k.inbuf = line ++ 10 :: rest → (10 : Byte) ∉ line → ¬ SetsSetting line ∧ ∀ n, Touches line n → ¬ N n) :
    SameAmong S N s s' := by
  have upd : ∀ (k : Conn) (c' : Ctx), AgreeOn N s.ctx c' → SameAmong S N s { s with ctx := c', conns := s.conns.set i k } := fun k c' h =>
    ⟨h, rfl, by simp, fun j hj => List.getElem?_set_ne (by rintro rfl; rw [hS] at hj; cases hj)⟩
  have same : AgreeOn N s.ctx s.ctx := ⟨rfl, fun _ _ _ => Iff.rfl⟩
  cases e with
  | accept => cases he
  | acceptErr => cases he
  | recv j b =>
    cases he
    simp only [step] at hst
    split at hst
    · split at hst
      · cases hst
      · cases hst; exact upd _ _ same
    · cases hst
  | read j =>
    cases he
    simp only [step] at hst
    split at hst
    · rename_i k hk
      split at hst
      · split at hst
        · rename_i line rest hsp
          obtain ⟨hb, hnl⟩ := splitLine_some hsp
          obtain ⟨hset, htch⟩ := hn k line rest hk hb hnl
          rcases handleLine_cases s i k line rest _ rfl hi with ⟨_, _, h3⟩ | ⟨_, _, h3⟩ | ⟨h1, c', t, r, h2, h3⟩ <;>
            rw [h3] at hst <;> cases hst
          · exact upd _ _ same
          · refine upd _ _ (agreeOn_of_lookup (execute_cfg hi h2 hset).symm fun n hn => (execute_frame hi h2 fun ht => htch n ht hn).symm)
        · cases hst
      · cases hst
    · cases hst
  | readErr j =>
    cases he
    simp only [step] at hst
    split at hst
    · split at hst
      · cases hst; exact upd _ _ same
      · cases hst
    · cases hst
  | wrote j =>
    cases he
    simp only [step] at hst
    split at hst
    · split at hst
      · split at hst
        · cases hst; exact upd _ _ same
        · cases hst
      · cases hst
    · cases hst
  | wroteShort j =>
    simp only [step] at hst
    split at hst
    · split at hst <;> cases hst
    · cases hst
  | writeErr j =>
    cases he
    simp only [step] at hst
    split at hst
    · split at hst
      · cases hst; exact upd _ _ same
      · cases hst
    · cases hst

theorem sameAmong_set {j : Nat} {k : Conn} {a b : Ctx} (h : SameAmong S N s t) (hd : AgreeOn N a b) :
    SameAmong S N { s with ctx := a, conns := s.conns.set j k } { t with ctx := b, conns := t.conns.set j k } := by
  obtain ⟨_, h2, h3, h4⟩ := h
  refine ⟨hd, h2, by simpa using h3, fun m hm => ?_⟩
  simp only [List.getElem?_set, h3, h4 m hm]

/-- An event at a connection in `S`, or an accept. -/
theorem step_inside [StdSort] {e : Event} (he : ∀ i, whose e = some i → S i = true) (hi : Inv s.ctx) (hj : Inv t.ctx) (hp : t.pwd = s.pwd)
    (hR : SameAmong S N s t) (hst : step s e = some (.done s'))
    (hn : ∀ i k line rest, whose e = some i → s.conns[i]? = some k → k.inbuf = line ++ 10 :: rest → (10 : Byte) ∉ line →
      ∀ n, Touches line n → N n) :
    ∃ t', step t e = some (.done t') ∧ SameAmong S N s' t' ∧ t'.pwd = s'.pwd := by
  cases e with
  | accept =>
    simp only [step, hR.2.1] at hst ⊢
    split at hst
    · rename_i ha
      cases hst
      refine ⟨_, if_pos ha, ⟨hR.1, rfl, by simp [hR.2.2.1], fun j hj => ?_⟩, hp⟩
      simp only [List.getElem?_append, hR.2.2.1, hR.2.2.2 j hj, hp]
    · cases hst
  | acceptErr =>
    simp only [step, hR.2.1] at hst ⊢
    split at hst
    · rename_i ha
      cases hst
      exact ⟨_, if_pos ha, ⟨hR.1, rfl, hR.2.2.1, hR.2.2.2⟩, hp⟩
    · cases hst
  | recv j b =>
    have hj := he j rfl
    simp only [step, hR.2.2.2 j hj] at hst ⊢
    split at hst
    · split at hst
      · cases hst
      · rename_i h; cases hst; exact ⟨_, if_neg h, sameAmong_set hR hR.1, hp⟩
    · cases hst
  | read j =>
    have hj' := he j rfl
    simp only [step, hR.2.2.2 j hj'] at hst ⊢
    split at hst
    · rename_i k hk
      split at hst
      · rename_i hph
        rw [if_pos hph]
        split at hst
        · rename_i line rest hsp
          obtain ⟨hb, hnl⟩ := splitLine_some hsp
          have hN := hn j k line rest rfl hk hb hnl
          have hag := execute_agreeOn s.pwd hi hj (some k.sess) line hN hR.1
          rcases handleLine_cases s j k line rest _ rfl hi with ⟨h1, h2, h3⟩ | ⟨_, _, h3⟩ | ⟨h1, c', z, r, h2, h3⟩ <;>
            rw [h3] at hst <;> cases hst <;>
            rcases handleLine_cases t j k line rest _ rfl hj with ⟨g1, g2, g3⟩ | ⟨g1, g2, g3⟩ | ⟨g1, d', z', r', g2, g3⟩ <;> rw [g3]
          · exact ⟨_, rfl, sameAmong_set hR hR.1, hp⟩
          · exact (g1.elim h1 h2).elim
          · exact (g1.elim h1 h2).elim
          · exact (h1.elim g1 g2).elim
          · rw [hp] at g2
            rw [h2, g2] at hag; exact hag.elim
          · rw [hp] at g2
            rw [h2, g2] at hag
            obtain ⟨e1, e2, e3⟩ := hag
            cases e2; cases e3
            exact ⟨_, rfl, sameAmong_set hR e1, hp⟩
        · cases hst
      · cases hst
    · cases hst
  | readErr j =>
    have hj := he j rfl
    simp only [step, hR.2.2.2 j hj] at hst ⊢
    split at hst
    · split at hst
      · rename_i h; cases hst; exact ⟨_, if_pos h, sameAmong_set hR hR.1, hp⟩
      · cases hst
    · cases hst
  | wrote j =>
    have hj := he j rfl
    simp only [step, hR.2.2.2 j hj] at hst ⊢
    split at hst
    · split at hst
      · split at hst
        · rename_i h; cases hst; exact ⟨_, if_pos h, sameAmong_set hR hR.1, hp⟩
        · cases hst
      · cases hst
    · cases hst
  | wroteShort j =>
    simp only [step] at hst
    split at hst
    · split at hst <;> cases hst
    · cases hst
  | writeErr j =>
    have hj := he j rfl
    simp only [step, hR.2.2.2 j hj] at hst ⊢
    split at hst
    · split at hst
      · cases hst; exact ⟨_, rfl, sameAmong_set hR hR.1, hp⟩
      · cases hst
    · cases hst

theorem sent_next [StdSort] {log : List Request} (h : Explains pwd c es s log) (hk : s.conns[i]? = some k) {line rest : Str}
    (hb : k.inbuf = line ++ 10 :: rest) (hn : (10 : Byte) ∉ line) : Sent i es line :=
  ⟨_, rest, by rw [h.input i k hk, hb], hn⟩

theorem among_run [StdSort] (hc : Reachable c) : ∀ {es : List Event} {s : Server},
    run (Server.init pwd c) es = some (.done s) →
    (∀ i line, S i = true → Sent i es line → ∀ n, Touches line n → N n) →
    (∀ i line, S i = false → Sent i es line → ¬ SetsSetting line ∧ ∀ n, Touches line n → ¬ N n) →
    ∃ t, run (Server.init pwd c) (among S es) = some (.done t) ∧ SameAmong S N s t ∧ t.pwd = s.pwd := by
  intro es
  induction es using List.reverseRecOn with
  | nil =>
    intro s h _ _
    cases h
    exact ⟨_, rfl, ⟨⟨rfl, fun _ _ _ => Iff.rfl⟩, rfl, rfl, fun _ _ => rfl⟩, rfl⟩
  | append_singleton es e ih =>
    intro s h hin hout
    rw [run_append] at h
    cases h0 : run (Server.init pwd c) es with
    | none => rw [h0] at h; cases h
    | some o =>
      cases o with
      | ub => rw [h0] at h; cases h
      | done s0 =>
        rw [h0] at h
        simp only [run_single] at h
        obtain ⟨log, hl⟩ := C44_serialized hc h0
        obtain ⟨log', hl'⟩ := explains_step hc hl h
        obtain ⟨t, ht, hR, hpw⟩ := ih h0 (fun i line hS hs => hin i line hS (sent_append hs)) (fun i line hS hs => hout i line hS (sent_append hs))
        have hi := reachable_inv (serial_reachable hc hl.serial)
        rw [among_snoc]
        by_cases hw : ∃ i, whose e = some i ∧ S i = false
        · obtain ⟨i, hw, hS⟩ := hw
          have e0 : among S [e] = [] := by simp [among, hw, hS]
          have hR' := step_outside (N := N) hw hS hi h fun k line rest hk hb hnl => hout i line hS (sent_append (sent_next hl hk hb hnl))
          obtain ⟨h1, h2, h3, h4⟩ := hR'
          refine ⟨t, by rw [e0]; simpa using ht, ⟨agreeOn_trans' (agreeOn_symm' h1) hR.1, hR.2.1.trans h2.symm, hR.2.2.1.trans h3.symm,
            fun j hj => (hR.2.2.2 j hj).trans (h4 j hj).symm⟩, ?_⟩
          rw [hpw, hl.password, hl'.password]
        · have he : ∀ i, whose e = some i → S i = true := fun i hi => by
            cases hS : S i with
            | true => rfl
            | false => exact absurd ⟨i, hi, hS⟩ hw
          have e0 : among S [e] = [e] := by
            unfold among
            rw [List.filter_eq_self]
            intro x hx
            simp only [List.mem_singleton] at hx
            subst hx
            cases hx : whose x with
            | none => rfl
            | some i => exact he i hx
          obtain ⟨logt, hlt⟩ := C44_serialized hc ht
          obtain ⟨t', ht', hR'⟩ := step_inside he hi (reachable_inv (serial_reachable hc hlt.serial)) hpw hR h
            fun i k line rest hw hk hb hnl => hin i line (he i hw) (sent_append (sent_next hl hk hb hnl))
          refine ⟨t', ?_, hR'⟩
          rw [e0, run_append, ht]; simpa [run_single] using ht'

/-- C50: if the lines that the connections in `S` sent touch only variables in `N`, and those that the others sent touch only variables
outside `N` and do not change the settings, then the connections in `S` are in the same state, having received the same bytes, and their
variables have the same values, as if the other clients had connected and then done nothing. -/
theorem C50_server [StdSort] (hc : Reachable c) (h : run (Server.init pwd c) es = some (.done s)) (S : Nat → Bool) (N : Str → Prop)
    (hin : ∀ i line, S i = true → Sent i es line → ∀ n, Touches line n → N n)
    (hout : ∀ i line, S i = false → Sent i es line → ¬ SetsSetting line ∧ ∀ n, Touches line n → ¬ N n) :
    ∃ s', run (Server.init pwd c) (among S es) = some (.done s') ∧ SameAmong S N s s' := by
  obtain ⟨t, h1, h2, _⟩ := among_run hc h hin hout
  exact ⟨t, h1, h2⟩

/-- What was sent, line by line. -/
theorem sent_mem {ls : List Str} {tail line : Str} (hr : received i es = wire ls ++ tail) (hl : ∀ l ∈ ls, (10 : Byte) ∉ l)
    (ht : (10 : Byte) ∉ tail) (h : Sent i es line) : line ∈ ls := by
  obtain ⟨b, rest, e, hn⟩ := h
  rw [hr] at e
  have hp : wire b = [] ∨ ∃ x, wire b = x ++ [10] := by
    rcases List.eq_nil_or_concat b with rfl | ⟨b, l, rfl⟩
    · exact .inl rfl
    · exact .inr ⟨wire b ++ l, by simp [wire]⟩
  generalize wire b = pre at e hp
  have uniq : ∀ {a b u v : Str}, (10 : Byte) ∉ a → (10 : Byte) ∉ b → a ++ 10 :: u = b ++ 10 :: v → a = b ∧ u = v := by
    intro a b u v ha hb h
    have := splitLine_append a u ha
    rw [h, splitLine_append b v hb] at this
    simp only [Option.some.injEq, Prod.mk.injEq] at this
    exact ⟨this.1.symm, this.2.symm⟩
  clear hr
  induction ls generalizing pre with
  | nil =>
    refine (ht ?_).elim
    have : (10 : Byte) ∈ pre ++ (line ++ 10 :: rest) := by simp
    rw [← e] at this; simpa [wire] using this
  | cons l ls ih =>
    have hl0 := hl l (by simp)
    have e : l ++ 10 :: (wire ls ++ tail) = pre ++ (line ++ 10 :: rest) := by rw [← e]; simp [wire]
    rcases hp with rfl | ⟨x, rfl⟩
    · rw [(uniq hl0 hn e).1]; simp
    · have e : l ++ 10 :: (wire ls ++ tail) = x ++ 10 :: (line ++ 10 :: rest) := by rw [e]; simp
      by_cases hx : (10 : Byte) ∈ x
      · obtain ⟨a, b, rfl, ha⟩ := List.eq_append_cons_of_mem hx
        have e : l ++ 10 :: (wire ls ++ tail) = a ++ 10 :: (b ++ 10 :: (line ++ 10 :: rest)) := by rw [e]; simp
        exact List.mem_cons_of_mem _ (ih (fun l h => hl l (List.mem_cons_of_mem _ h)) (b ++ [10]) (by rw [(uniq hl0 ha e).2]; simp) (.inr ⟨b, rfl⟩))
      · exact List.mem_cons_of_mem _ (ih (fun l h => hl l (List.mem_cons_of_mem _ h)) [] (uniq hl0 hx e).2 (.inl rfl))

theorem twoClients_sent {line : Str} (h : Sent i twoClients line) :
    (i = 0 ∧ (line = b!"Integer create: a::i withValue: 1;" ∨ line = b!"a::i get;")) ∨ (i = 1 ∧ line = b!"Integer create: b::i withValue: 2;") := by
  match i, h with
  | 0, h =>
    have := sent_mem (ls := [b!"Integer create: a::i withValue: 1;", b!"a::i get;"]) (tail := []) (by decide +kernel) (by decide +kernel) (by simp) h
    simp only [List.mem_cons, List.not_mem_nil, or_false] at this
    exact .inl ⟨rfl, this⟩
  | 1, h =>
    have := sent_mem (ls := [b!"Integer create: b::i withValue: 2;"]) (tail := []) (by decide +kernel) (by decide +kernel) (by simp) h
    simp only [List.mem_cons, List.not_mem_nil, or_false] at this
    exact .inr ⟨rfl, this⟩
  | i + 2, h =>
    have := sent_mem (ls := []) (tail := []) (by simp [twoClients, received, wire]) (by simp) (by simp) h
    cases this

/-- The hypotheses of `C50_server` are met by the two clients with their own namespaces. -/
example [StdSort] : run (Server.init [] fresh) twoClients = some (.done twoClientsServer) ∧
    (∀ i line, (i == 0) = true → Sent i twoClients line → ∀ n, Touches line n → InNamespace n b!"a") ∧
    (∀ i line, (i == 0) = false → Sent i twoClients line → ¬ SetsSetting line ∧ ∀ n, Touches line n → ¬ InNamespace n b!"a") ∧
    among (· == 0) twoClients = [.accept, .accept, .recv 0 b!"Integer create: a::i withValue: 1;\na::i get;\n", .read 0, .wrote 0, .read 0] := by
  have h1 : Statement b!"Integer create: a::i withValue: 1;" b!"Integer" b!"create:withValue:" [b!"a::i", b!"1"] := reads (by decide +kernel)
  have h2 : Statement b!"Integer create: b::i withValue: 2;" b!"Integer" b!"create:withValue:" [b!"b::i", b!"2"] := reads (by decide +kernel)
  have h3 : Statement b!"a::i get;" b!"a::i" b!"get" [] := reads (by decide +kernel)
  have hI : IsType b!"Integer" := (isType_iff _).1 (by decide)
  have hi : InNamespace b!"a::i" b!"a" := ⟨b!"i", (isIdentifier_iff _).1 (by decide), rfl⟩
  have hb : ¬ InNamespace b!"b::i" b!"a" := by rintro ⟨x, _, e⟩; revert e; simp
  refine ⟨twoClients_run, fun i line hS hs n hn => ?_, fun i line hS hs => ?_, by decide +kernel⟩
  · rcases twoClients_sent hs with ⟨rfl, rfl | rfl⟩ | ⟨rfl, rfl⟩
    · rw [touches_creation h1 hI rfl hn]; exact hi
    · rw [touches_message h3 ((isVariable_iff _).1 (by decide)) hn]; exact hi
    · cases hS
  · rcases twoClients_sent hs with ⟨rfl, _⟩ | ⟨rfl, rfl⟩
    · cases hS
    · refine ⟨?_, fun n hn => by rw [touches_creation h2 hI rfl hn]; exact hb⟩
      rintro (h | h)
      · have := (statement_unique h2 h).1; revert this; decide
      · have := (statement_unique h2 h).1; revert this; decide

end Knuckle.Props
