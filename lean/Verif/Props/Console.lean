/-
C102: standard output.
-/
import Verif.Spec.Console
import Verif.Props.Crash
import Verif.Props.LogFile

namespace Knuckle.Props

open Spec

section
variable [StdSort] {pwd : Str} {c : Ctx} {s t : Server} {e : Event} {f : Console} {xs ys : List Shown} {x : Shown} {u u' : CServer}

theorem executes_read {i : Nat} {k : Conn} {line rest : Str} (hk : s.conns[i]? = some k) (hp : k.phase = .reading) (hl : splitLine k.inbuf = some (line, rest)) :
    ExecutesALine s (.read i) ↔ (k.sess.authed = true ∨ ToConnection line) := by
  obtain ⟨e1, e2⟩ := Knuckle.splitLine_some hl
  constructor
  · rintro ⟨j, k', line', rest', h1, h2, h3, h4, h5, h6⟩
    cases h1
    rw [hk] at h2; cases h2
    have : splitLine k.inbuf = some (line', rest') := by rw [h4]; exact splitLine_append _ _ h5
    rw [hl] at this; cases this
    exact h6
  · exact fun h => ⟨i, k, line, rest, rfl, hk, hp, e1, e2, h⟩

/-- What an event adds to the log. -/
theorem step_records (hc : Reachable s.ctx) (h : step s e = some (.done t)) :
    (ExecutesALine s e ∧ t.ctx.fileOpen = s.ctx.fileOpen ∧ t.ctx.quiet = s.ctx.quiet ∧
      ∃ r, t.ctx.stdoutLog = s.ctx.stdoutLog ++ (if !s.ctx.fileOpen && !s.ctx.quiet then [r] else [])) ∨ (¬ ExecutesALine s e ∧ t.ctx = s.ctx) := by
  have no : (∀ i, e ≠ .read i) → ¬ ExecutesALine s e := by
    rintro h ⟨i, _, _, _, h1, _⟩; exact h i h1
  cases e with
  | read i =>
    simp only [step] at h
    split at h
    swap
    · cases h
    rename_i k hk
    split at h
    swap
    · cases h
    rename_i hp
    split at h
    swap
    · cases h
    rename_i line rest hl
    have ex := executes_read hk hp hl
    rcases handleLine_cases s i k line rest _ (Option.some.inj h) (reachable_inv hc) with ⟨h1, h2, h3⟩ | ⟨_, _, h3⟩ | ⟨h1, c', s', r, h2, h3⟩
    · cases h3
      exact .inr ⟨fun hx => by rcases ex.1 hx with g | g; exacts [h1 g, h2 g], rfl⟩
    · cases h3
    · cases h3
      obtain ⟨tr, _, a1, a2, _, a3⟩ := C38_one_record_per_request hc h2
      exact .inl ⟨ex.2 h1, a1, a2, (tr, r), a3⟩
  | accept =>
    simp only [step] at h
    split at h <;> cases h
    exact .inr ⟨no (by simp), rfl⟩
  | acceptErr =>
    simp only [step] at h
    split at h <;> cases h
    exact .inr ⟨no (by simp), rfl⟩
  | recv i b =>
    simp only [step] at h
    split at h
    swap
    · cases h
    split at h <;> cases h
    exact .inr ⟨no (by simp), rfl⟩
  | readErr i =>
    simp only [step] at h
    split at h
    swap
    · cases h
    split at h <;> cases h
    exact .inr ⟨no (by simp), rfl⟩
  | wrote i =>
    simp only [step] at h
    split at h
    swap
    · cases h
    split at h
    swap
    · cases h
    split at h <;> cases h
    exact .inr ⟨no (by simp), rfl⟩
  | wroteShort i =>
    simp only [step] at h
    split at h
    · split at h <;> cases h
    · cases h
  | writeErr i =>
    simp only [step] at h
    split at h
    swap
    · cases h
    split at h <;> cases h
    exact .inr ⟨no (by simp), rfl⟩

/-- How an event ends, with standard output. -/
theorem cstep_cases (hc : Reachable u.srv.ctx) :
    (¬ (Loud u.srv.ctx ∧ u.console.good = true ∧ ExecutesALine u.srv x.event) → cstep u x = withConsole u.console (step u.srv x.event)) ∧
    (Loud u.srv.ctx → u.console.good = true → ExecutesALine u.srv x.event →
      ∀ t, step u.srv x.event = some (.done t) → ∃ r, t.ctx.stdoutLog = u.srv.ctx.stdoutLog ++ [r] ∧
        cstep u x = match x.fate with
          | .taken => some (.goes ⟨t, ⟨u.console.text ++ logLine x.stamp r, true⟩⟩)
          | .refused n => some (.goes ⟨t, ⟨u.console.text ++ (logLine x.stamp r).take n, false⟩⟩)
          | .broken => some .killed
          | .waits => some .hangs) := by
  constructor
  · intro hn
    unfold cstep
    cases hst : step u.srv x.event with
    | none => rfl
    | some o => cases o with
      | ub => rfl
      | done t =>
        have : u.console.writeAll x.stamp x.fate (t.ctx.stdoutLog.drop u.srv.ctx.stdoutLog.length) = .goes u.console := by
          rcases step_records hc hst with ⟨h1, _, _, r, h2⟩ | ⟨_, h2⟩
          · by_cases hl : Loud u.srv.ctx
            · have hg : u.console.good = false := by
                cases hg : u.console.good with
                | false => rfl
                | true => exact absurd ⟨hl, hg, h1⟩ hn
              rw [h2]
              simp [hl.1, hl.2, Console.writeAll, Console.write, hg]
            · have : (!u.srv.ctx.fileOpen && !u.srv.ctx.quiet) = false := by
                by_contra h
                exact hl (by unfold Loud; simpa using h)
              rw [h2, this]
              simp [Console.writeAll]
          · rw [h2]; simp [Console.writeAll]
        simp only [this, withConsole]
  · intro hl hg hx t hst
    rcases step_records hc hst with ⟨_, _, _, r, h2⟩ | ⟨h1, _⟩
    swap
    · exact absurd hx h1
    rw [hl.1, hl.2] at h2
    simp only [Bool.not_false, Bool.and_self, if_true] at h2
    refine ⟨r, h2, ?_⟩
    unfold cstep
    rw [hst]
    simp only [h2, List.drop_left, Console.writeAll, Console.write, hg, if_true]
    cases x.fate <;> rfl

theorem crun_append (a b : List Shown) : crun u (a ++ b) = match crun u a with
    | none => none
    | some .ub => some .ub
    | some (.goes s') => crun s' b
    | some .killed => match b with | [] => some .killed | _ => none
    | some .hangs => match b with | [] => some .hangs | _ => none := by
  induction a generalizing u with
  | nil => rfl
  | cons x xs ih =>
    simp only [List.cons_append, crun]
    cases cstep u x with
    | none => rfl
    | some o => cases o with
      | ub => rfl
      | goes t => exact ih
      | killed => cases xs <;> cases b <;> rfl
      | hangs => cases xs <;> cases b <;> rfl

theorem step_reachable (hc : Reachable s.ctx) (h : step s e = some (.done t)) : Reachable t.ctx := by
  cases e with
  | read i =>
    simp only [step] at h
    split at h
    swap
    · cases h
    split at h
    swap
    · cases h
    split at h
    swap
    · cases h
    rcases handleLine_cases s i _ _ _ _ (Option.some.inj h) (reachable_inv hc) with ⟨_, _, h3⟩ | ⟨_, _, h3⟩ | ⟨h1, c', s', r, h2, h3⟩
    · cases h3; exact hc
    · cases h3
    · cases h3; exact .step hc h2
  | _ =>
    rcases step_records hc h with ⟨⟨i, _, _, _, h1, _⟩, _⟩ | ⟨_, h2⟩
    · cases h1
    · rw [h2]; exact hc

theorem step_flags (hc : Reachable s.ctx) (h : step s e = some (.done t)) : Loud t.ctx ↔ Loud s.ctx := by
  rcases step_records hc h with ⟨_, h1, h2, _⟩ | ⟨_, h2⟩
  · unfold Loud; rw [h1, h2]
  · rw [h2]

/-- C102: with a log file, in quiet mode, or once standard output is in error, it does not matter to anybody: nothing is written. -/
theorem C102_not_written (hc : Reachable c) (h : c.fileOpen = true ∨ c.quiet = true ∨ f.good = false) :
    crun ⟨Server.init pwd c, f⟩ xs = withConsole f (run (Server.init pwd c) (xs.map Shown.event)) := by
  have key : ∀ (s : Server), Reachable s.ctx → (¬ Loud s.ctx ∨ f.good = false) →
      crun ⟨s, f⟩ xs = withConsole f (run s (xs.map Shown.event)) := by
    induction xs with
    | nil => intro s _ _; rfl
    | cons x xs ih =>
      intro s hs hl
      have h1 := (cstep_cases (u := ⟨s, f⟩) (x := x) hs).1 (by
        rintro ⟨g1, g2, _⟩
        rcases hl with hl | hl
        · exact hl g1
        · rw [hl] at g2; cases g2)
      simp only [crun, List.map_cons, run, h1]
      cases hst : step s x.event with
      | none => rfl
      | some o => cases o with
        | ub => rfl
        | done t =>
          simp only [withConsole]
          exact ih t (step_reachable hs hst) (hl.imp (fun g => by rw [step_flags hs hst]; exact g) id)
  refine key _ hc ?_
  rcases h with h | h | h
  · exact .inl fun g => absurd (g.1.symm.trans h) (by simp)
  · exact .inl fun g => absurd (g.2.symm.trans h) (by simp)
  · exact .inr h

/-- C102: clients do not notice bytes that are refused: as long as nobody closes the pipe or stops reading, the server does exactly what it does
when everything is written. -/
theorem C102_errors_do_not_matter (hc : Reachable c) (h : ∀ x ∈ xs, x.fate ≠ .broken ∧ x.fate ≠ .waits) :
    withoutConsole (crun ⟨Server.init pwd c, f⟩ xs) = run (Server.init pwd c) (xs.map Shown.event) := by
  have key : ∀ (s : Server) (f : Console), Reachable s.ctx → withoutConsole (crun ⟨s, f⟩ xs) = run s (xs.map Shown.event) := by
    induction xs with
    | nil => intro s f _; rfl
    | cons x xs ih =>
      intro s f hs
      have ih := ih fun y hy => h y (by simp [hy])
      obtain ⟨h1, h2⟩ := cstep_cases (u := ⟨s, f⟩) (x := x) hs
      by_cases hx : Loud s.ctx ∧ f.good = true ∧ ExecutesALine s x.event
      · simp only [crun, List.map_cons, run]
        cases hst : step s x.event with
        | none => simp only [cstep, hst]; rfl
        | some o => cases o with
          | ub => simp only [cstep, hst]; rfl
          | done t =>
            obtain ⟨r, _, h3⟩ := h2 hx.1 hx.2.1 hx.2.2 t hst
            obtain ⟨n1, n2⟩ := h x (by simp)
            rw [h3]
            cases hf : x.fate with
            | taken => exact ih t _ (step_reachable hs hst)
            | refused n => exact ih t _ (step_reachable hs hst)
            | broken => exact absurd hf n1
            | waits => exact absurd hf n2
      · have h1 := h1 hx
        simp only [crun, List.map_cons, run, h1]
        cases hst : step s x.event with
        | none => rfl
        | some o => cases o with
          | ub => rfl
          | done t => exact ih t _ (step_reachable hs hst)
  exact key _ _ hc

omit [StdSort] in
theorem withConsole_goes {o : Option (Outcome Server)} (h : withConsole f o = some (.goes u)) : o = some (.done u.srv) ∧ u.console = f := by
  cases o with
  | none => cases h
  | some o => cases o with
    | ub => cases h
    | done t => cases h; exact ⟨rfl, rfl⟩

/-- A history that goes on: what the server did. -/
theorem crun_run (hc : Reachable u.srv.ctx) (h : crun u xs = some (.goes u')) : run u.srv (xs.map Shown.event) = some (.done u'.srv) ∧
    Reachable u'.srv.ctx ∧ (Loud u'.srv.ctx ↔ Loud u.srv.ctx) := by
  induction xs generalizing u with
  | nil => cases h; exact ⟨rfl, hc, Iff.rfl⟩
  | cons x xs ih =>
    simp only [crun] at h
    have one : ∀ v, cstep u x = some (.goes v) → step u.srv x.event = some (.done v.srv) := by
      intro v hv
      obtain ⟨h1, h2⟩ := cstep_cases (x := x) hc
      by_cases hx : Loud u.srv.ctx ∧ u.console.good = true ∧ ExecutesALine u.srv x.event
      · cases hst : step u.srv x.event with
        | none => simp only [cstep, hst] at hv; cases hv
        | some o => cases o with
          | ub => simp only [cstep, hst] at hv; cases hv
          | done t =>
            obtain ⟨r, _, h3⟩ := h2 hx.1 hx.2.1 hx.2.2 t hst
            rw [hv] at h3
            cases hf : x.fate <;> rw [hf] at h3 <;> cases h3 <;> rfl
      · rw [h1 hx] at hv
        exact (withConsole_goes hv).1
    cases hx : cstep u x with
    | none => rw [hx] at h; cases h
    | some o => cases o with
      | ub => rw [hx] at h; cases h
      | killed => rw [hx] at h; cases xs <;> cases h
      | hangs => rw [hx] at h; cases xs <;> cases h
      | goes v =>
        rw [hx] at h
        have hv := one v hx
        obtain ⟨h1, h2, h3⟩ := ih (step_reachable hc hv) h
        exact ⟨by simp only [List.map_cons, run, hv]; exact h1, h2, h3.trans (step_flags hc hv)⟩

/-- C102: a server that logs to standard output is killed exactly if a request is executed while standard output is a pipe that nobody can read
any more; the request is not answered.  (Executed without authentication: statements to `Connection` with any password.) -/
theorem C102_killed (hc : Reachable c) (hl : Loud c) (h : crun ⟨Server.init pwd c, f⟩ xs = some (.goes u)) (hg : u.console.good = true)
    (hst : step u.srv x.event = some (.done t)) : crun ⟨Server.init pwd c, f⟩ (xs ++ [x]) = some .killed ↔ x.fate = .broken ∧ ExecutesALine u.srv x.event := by
  obtain ⟨_, h1, h2⟩ := crun_run (u := ⟨Server.init pwd c, f⟩) hc h
  rw [crun_append, h]
  obtain ⟨h3, h4⟩ := cstep_cases (x := x) h1
  simp only [crun]
  by_cases hx : ExecutesALine u.srv x.event
  · obtain ⟨r, _, h5⟩ := h4 (h2.2 hl) hg hx t hst
    rw [h5]
    cases hf : x.fate <;> simp [hx]
  · rw [h3 fun g => hx g.2.2, hst]
    simp [withConsole, hx]

/-- C102: and it hangs, for all clients and for good, exactly if a request is executed while nobody reads standard output and no room is left. -/
theorem C102_hangs (hc : Reachable c) (hl : Loud c) (h : crun ⟨Server.init pwd c, f⟩ xs = some (.goes u)) (hg : u.console.good = true)
    (hst : step u.srv x.event = some (.done t)) :
    (crun ⟨Server.init pwd c, f⟩ (xs ++ [x]) = some .hangs ↔ x.fate = .waits ∧ ExecutesALine u.srv x.event) ∧
    (crun ⟨Server.init pwd c, f⟩ (xs ++ [x]) = some .hangs → ∀ y ys, crun ⟨Server.init pwd c, f⟩ (xs ++ [x] ++ y :: ys) = none) := by
  obtain ⟨_, h1, h2⟩ := crun_run (u := ⟨Server.init pwd c, f⟩) hc h
  refine ⟨?_, fun hh y ys => by rw [crun_append, hh]⟩
  rw [crun_append, h]
  obtain ⟨h3, h4⟩ := cstep_cases (x := x) h1
  simp only [crun]
  by_cases hx : ExecutesALine u.srv x.event
  · obtain ⟨r, _, h5⟩ := h4 (h2.2 hl) hg hx t hst
    rw [h5]
    cases hf : x.fate <;> simp [hx]
  · rw [h3 fun g => hx g.2.2, hst]
    simp [withConsole, hx]

/-- C102: the same as an implication without hypotheses on the last event: the process is killed or hangs only if requests are logged to standard
output and one is executed. -/
theorem C102_only_then (hc : Reachable c) (h : crun ⟨Server.init pwd c, f⟩ xs = some .killed ∨ crun ⟨Server.init pwd c, f⟩ xs = some .hangs) :
    Loud c ∧ ∃ ys x u t, xs = ys ++ [x] ∧ crun ⟨Server.init pwd c, f⟩ ys = some (.goes u) ∧ u.console.good = true ∧
      step u.srv x.event = some (.done t) ∧ ExecutesALine u.srv x.event ∧ (x.fate = .broken ∨ x.fate = .waits) := by
  rcases List.eq_nil_or_concat xs with rfl | ⟨ys, x, e⟩
  · rcases h with h | h <;> cases h
  rw [List.concat_eq_append] at e
  subst e
  rw [crun_append] at h
  cases hy : crun ⟨Server.init pwd c, f⟩ ys with
  | none => rw [hy] at h; rcases h with h | h <;> cases h
  | some o => cases o with
    | ub => rw [hy] at h; rcases h with h | h <;> cases h
    | killed => rw [hy] at h; rcases h with h | h <;> cases h
    | hangs => rw [hy] at h; rcases h with h | h <;> cases h
    | goes u =>
      obtain ⟨_, h1, h2⟩ := crun_run (u := ⟨Server.init pwd c, f⟩) hc hy
      rw [hy] at h
      simp only [crun] at h
      obtain ⟨h3, h4⟩ := cstep_cases (x := x) h1
      by_cases hx : Loud u.srv.ctx ∧ u.console.good = true ∧ ExecutesALine u.srv x.event
      · refine ⟨h2.1 hx.1, ys, x, u, ?_⟩
        cases hst : step u.srv x.event with
        | none => simp only [cstep, hst] at h; rcases h with h | h <;> cases h
        | some o => cases o with
          | ub => simp only [cstep, hst] at h; rcases h with h | h <;> cases h
          | done t =>
            obtain ⟨r, _, h5⟩ := h4 hx.1 hx.2.1 hx.2.2 t hst
            refine ⟨t, rfl, hy, hx.2.1, rfl, hx.2.2, ?_⟩
            rw [h5] at h
            cases hf : x.fate <;> rw [hf] at h <;> simp at h ⊢
      · exfalso
        rw [h3 hx] at h
        cases hst : step u.srv x.event with
        | none => rw [hst] at h; rcases h with h | h <;> cases h
        | some o => cases o <;> rw [hst] at h <;> rcases h with h | h <;> cases h

theorem serial_shown {log : List Request} {c' : Ctx} (hc : Reachable c) (hl : Loud c) (h : Serial pwd c log c') :
    Loud c' ∧ ∃ l, c'.stdoutLog = c.stdoutLog ++ l ∧ List.Forall₂ RecordOf (log.filter executed) l := by
  induction h with
  | nil => exact ⟨hl, [], by simp, .nil⟩
  | @executed log _ _ i line reply _ _ h1 _ _ _ he ih =>
    obtain ⟨h0, l, h2, h3⟩ := ih
    obtain ⟨t, ht, h5, h6, _, h4⟩ := C38_one_record_per_request (serial_reachable hc h1) he
    have hr := (C49_other_errors (serial_reachable hc h1) he).1
    rw [h0.1, h0.2] at h4
    refine ⟨⟨h5.trans h0.1, h6.trans h0.2⟩, l ++ [(t, reply)], by rw [h4, h2]; simp, ?_⟩
    rw [List.filter_append]
    refine List.rel_append h3 ?_
    have : List.filter executed [(⟨i, line, reply⟩ : Request)] = [⟨i, line, reply⟩] := by simp [executed, hr]
    rw [this]
    exact .cons ⟨ht, rfl⟩ .nil
  | @ignored log _ i line _ _ _ _ ih =>
    obtain ⟨h0, l, h2, h3⟩ := ih
    refine ⟨h0, l, h2, ?_⟩
    rw [List.filter_append]
    simpa [executed] using h3

/-- C102: whatever becomes of the bytes, standard output shows what it showed at the start and then the log, or an initial part of it if an
error was reported; the log has one line for each request that was executed, in order, with its reply, whether or not the reply has already
been sent. -/
theorem C102_shown (hc : Reachable c) (hl : Loud c) (h0 : c.stdoutLog = []) (hst : ∀ x ∈ xs, Stamp x.stamp)
    (h : crun ⟨Server.init pwd c, f⟩ xs = some (.goes u)) :
    ∃ log records txt, Explains pwd c (xs.map Shown.event) u.srv log ∧ List.Forall₂ RecordOf (log.filter executed) records ∧
      LogText records txt ∧ (u.console.good = true → u.console.text = f.text ++ txt) ∧ (f.good = true → u.console.text <+: f.text ++ txt) := by
  have text : ∃ txt, LogText u.srv.ctx.stdoutLog txt ∧ (u.console.good = true → u.console.text = f.text ++ txt) ∧
      (f.good = true → u.console.text <+: f.text ++ txt) := by
    induction xs using List.reverseRecOn generalizing u with
    | nil => cases h; exact ⟨[], ⟨[], by simp [Server.init, h0], by simp, by simp [logLines]⟩, by simp, by simp⟩
    | append_singleton ys x ih =>
      rw [crun_append] at h
      cases hy : crun ⟨Server.init pwd c, f⟩ ys with
      | none => rw [hy] at h; cases h
      | some o => cases o with
        | ub => rw [hy] at h; cases h
        | killed => rw [hy] at h; cases h
        | hangs => rw [hy] at h; cases h
        | goes v =>
          obtain ⟨txt, i2, i3, i4⟩ := ih (fun y hy => hst y (by simp [hy])) hy
          obtain ⟨_, h1, h2⟩ := crun_run (u := ⟨Server.init pwd c, f⟩) hc hy
          rw [hy] at h
          simp only [crun] at h
          obtain ⟨h3, h4⟩ := cstep_cases (x := x) h1
          cases hs : step v.srv x.event with
          | none => simp only [cstep, hs] at h; cases h
          | some o => cases o with
            | ub => simp only [cstep, hs] at h; cases h
            | done t =>
              by_cases hx : ExecutesALine v.srv x.event
              · cases hg : v.console.good with
                | true =>
                  obtain ⟨r, h5, h6⟩ := h4 (h2.2 hl) hg hx t hs
                  have ht := logText_snoc (y := r) i2 (hst x (by simp))
                  rw [← h5] at ht
                  refine ⟨txt ++ logLine x.stamp r, ?_⟩
                  rw [h6] at h
                  cases hf : x.fate <;> rw [hf] at h <;> cases h
                  · exact ⟨ht, fun _ => by simp only [i3 hg, List.append_assoc], fun _ => by simp only [i3 hg, List.append_assoc]; exact List.prefix_refl _⟩
                  · refine ⟨ht, fun g => (by cases g), fun _ => ?_⟩
                    simp only [i3 hg, List.append_assoc]
                    exact (List.prefix_append_right_inj _).2 ((List.prefix_append_right_inj _).2 (List.take_prefix _ _))
                | false =>
                  rw [h3 fun g => (by rw [hg] at g; cases g.2.1), hs] at h
                  cases h
                  rcases step_records h1 hs with ⟨_, _, _, r, h5⟩ | ⟨h5, _⟩
                  swap
                  · exact absurd hx h5
                  rw [(h2.2 hl).1, (h2.2 hl).2] at h5
                  have ht := logText_snoc (y := r) i2 (hst x (by simp))
                  refine ⟨txt ++ logLine x.stamp r, by rw [h5]; exact ht, fun g => (by rw [hg] at g; cases g), fun g => ?_⟩
                  rw [← List.append_assoc]
                  exact (i4 g).trans (List.prefix_append _ _)
              · rw [h3 fun g => hx g.2.2, hs] at h
                cases h
                rcases step_records h1 hs with ⟨h5, _⟩ | ⟨_, h5⟩
                · exact absurd h5 hx
                · exact ⟨txt, by simp only [h5]; exact i2, i3, i4⟩
  obtain ⟨txt, t1, t2, t3⟩ := text
  obtain ⟨log, h1⟩ := C44_serialized hc (crun_run (u := ⟨Server.init pwd c, f⟩) hc h).1
  obtain ⟨_, l, h2, h3⟩ := serial_shown hc hl h1.serial
  rw [h0, List.nil_append] at h2
  exact ⟨log, l, txt, h1, h3, h2 ▸ t1, t2, t3⟩

/-- C102: as long as everything is taken, no error is reported, and the server does what it does without looking at standard output. -/
theorem C102_complete (hc : Reachable c) (hg : f.good = true) (hf : ∀ x ∈ xs, x.fate = .taken)
    (h : run (Server.init pwd c) (xs.map Shown.event) = some (.done s)) :
    ∃ g, crun ⟨Server.init pwd c, f⟩ xs = some (.goes ⟨s, g⟩) ∧ g.good = true := by
  have h1 := C102_errors_do_not_matter (pwd := pwd) (f := f) hc (xs := xs) fun x hx => by rw [hf x hx]; simp
  rw [h] at h1
  cases hr : crun ⟨Server.init pwd c, f⟩ xs with
  | none => rw [hr] at h1; cases h1
  | some o => cases o with
    | ub => rw [hr] at h1; cases h1
    | killed => rw [hr] at h1; cases h1
    | hangs => rw [hr] at h1; cases h1
    | goes u =>
      rw [hr] at h1; cases h1
      refine ⟨u.console, rfl, ?_⟩
      have key : ∀ (u v : CServer), Reachable u.srv.ctx → u.console.good = true → crun u xs = some (.goes v) → v.console.good = true := by
        clear hr h
        induction xs with
        | nil => intro u v _ hg h; cases h; exact hg
        | cons x xs ih =>
          intro u v hu hg h
          simp only [crun] at h
          obtain ⟨h3, h4⟩ := cstep_cases (x := x) hu
          cases hs : step u.srv x.event with
          | none => simp only [cstep, hs] at h; cases h
          | some o => cases o with
            | ub => simp only [cstep, hs] at h; cases h
            | done t =>
              by_cases hx : Loud u.srv.ctx ∧ u.console.good = true ∧ ExecutesALine u.srv x.event
              · obtain ⟨r, _, h6⟩ := h4 hx.1 hx.2.1 hx.2.2 t hs
                rw [h6, hf x (by simp)] at h
                exact ih (fun y hy => hf y (by simp [hy])) _ _ (step_reachable hu hs) rfl h
              · rw [h3 hx, hs] at h
                exact ih (fun y hy => hf y (by simp [hy])) ⟨t, u.console⟩ _ (step_reachable hu hs) hg h
      exact key ⟨Server.init pwd c, f⟩ u hc hg hr

omit [StdSort] in
/-- C102: the server prints two lines and an empty one before it serves, even in quiet mode and with a log file; if nobody can read or nobody
reads them, it does not start; if they are refused, it starts, and never prints anything. -/
theorem C102_start {pid : Str} {fate : OutFate} :
    (cstart pid fate s = .killed ↔ fate = .broken) ∧ (cstart pid fate s = .hangs ↔ fate = .waits) ∧
    ∀ u, cstart pid fate s = .goes u → u.srv = s ∧
      ((fate = .taken ∧ u.console = ⟨b!"Running Knuckleball 0.1.0\nPID: " ++ pid ++ b!"\n\n", true⟩) ∨
       (∃ n, fate = .refused n) ∧ u.console.good = false) := by
  cases fate with
  | taken => refine ⟨by simp [cstart, Console.write], by simp [cstart, Console.write], ?_⟩
             rintro u h; cases h
             exact ⟨rfl, .inl ⟨rfl, by simp [banner]⟩⟩
  | refused n => refine ⟨by simp [cstart, Console.write], by simp [cstart, Console.write], ?_⟩
                 rintro u h; cases h
                 exact ⟨rfl, .inr ⟨⟨n, rfl⟩, rfl⟩⟩
  | broken => refine ⟨by simp [cstart, Console.write], by simp [cstart, Console.write], ?_⟩
              rintro u h; cases h
  | waits => refine ⟨by simp [cstart, Console.write], by simp [cstart, Console.write], ?_⟩
             rintro u h; cases h

end

/-- A server that logs to standard output. -/
def loud : Ctx := Ctx.init 3 (.fin false 0) false false

theorem loud_reachable [StdSort] : Reachable loud := .init _ _ _ _ (by decide +kernel)

/-- The event at a fixed time. -/
def shownAs (fate : OutFate) (e : Event) : Shown := ⟨e, b!"[2026-11-18 01:02:03]", fate⟩

/-- A client that knows the password works; one that does not has sent a line. -/
def loudEvents : List Shown := [.accept, .accept, .recv 0 b!"Connection authenticateWithPassword: \"pw\";\nInteger create: i withValue: 7;\n",
  .read 0, .wrote 0, .read 0, .wrote 0, .recv 1 b!"i get;\nConnection authenticateWithPassword: \"no\";\n", .read 1, .wrote 1].map (shownAs .taken)

def loudServer : CServer :=
  ⟨{ pwd := b!"pw", accepting := true, ctx := { loud with vars := [(b!"i", .integer 7)], stdoutLog := [(b!"Connection authenticateWithPassword: \"pw\";", b!"null"), (b!"Integer create: i withValue: 7;", b!"null")] }, conns := [
    { sess := ⟨true, true⟩, inbuf := [], phase := .reading, out := b!"null\nnull\n" },
    { sess := ⟨true, false⟩, inbuf := b!"Connection authenticateWithPassword: \"no\";\n", phase := .reading, out := b!"AuthenticationError: not authenticated.\n" }] },
   ⟨b!"[2026-11-18 01:02:03] Connection authenticateWithPassword: \"pw\"; -> null\n[2026-11-18 01:02:03] Integer create: i withValue: 7; -> null\n", true⟩⟩

theorem loud_run [StdSort] : crun ⟨Server.init b!"pw" loud, ⟨[], true⟩⟩ loudEvents = some (.goes loudServer) := by
  kernel_rfl

/-- The client without the password ends the process, if nobody can read standard output any more; and stops it, if nobody does. -/
example [StdSort] : crun ⟨Server.init b!"pw" loud, ⟨[], true⟩⟩ (loudEvents ++ [shownAs .broken (.read 1)]) = some .killed ∧
    crun ⟨Server.init b!"pw" loud, ⟨[], true⟩⟩ (loudEvents ++ [shownAs .waits (.read 1)]) = some .hangs ∧
    ExecutesALine loudServer.srv (.read 1) := by
  have hx : ExecutesALine loudServer.srv (.read 1) :=
    ⟨1, _, b!"Connection authenticateWithPassword: \"no\";", [], rfl, rfl, rfl, rfl, by decide +kernel, .inr
      ⟨b!"authenticateWithPassword:", [b!"\"no\""], reads (by kernel_rfl)⟩⟩
  have hst : step loudServer.srv (.read 1) = some (.done { loudServer.srv with
      ctx := { loudServer.srv.ctx with stdoutLog := loudServer.srv.ctx.stdoutLog ++ [(b!"Connection authenticateWithPassword: \"no\";", b!"AuthenticationError: wrong password.")] },
      conns := [loudServer.srv.conns[0], { loudServer.srv.conns[1] with inbuf := [], phase := .writing b!"AuthenticationError: wrong password." }] }) := by
    kernel_rfl
  exact ⟨(C102_killed loud_reachable ⟨rfl, rfl⟩ loud_run rfl hst).2 ⟨rfl, hx⟩,
    (C102_hangs loud_reachable ⟨rfl, rfl⟩ loud_run rfl hst).1.2 ⟨rfl, hx⟩, hx⟩

/-- The same client, with standard output refusing everything after eight bytes: it is answered, and nothing is shown any more. -/
example [StdSort] : ∃ u, crun ⟨Server.init b!"pw" loud, ⟨[], true⟩⟩ (loudEvents ++ [shownAs (.refused 8) (.read 1), shownAs .taken (.wrote 1),
      shownAs .taken (.recv 0 b!"i get;\n"), shownAs .broken (.read 0), shownAs .taken (.wrote 0)]) = some (.goes u) ∧
    u.console = ⟨loudServer.console.text ++ b!"[2026-11", false⟩ ∧
    u.srv.conns.map (·.out) = [b!"null\nnull\n7\n", b!"AuthenticationError: not authenticated.\nAuthenticationError: wrong password.\n"] := by
  refine ⟨⟨{ loudServer.srv with
      ctx := { loudServer.srv.ctx with stdoutLog := loudServer.srv.ctx.stdoutLog ++ [(b!"Connection authenticateWithPassword: \"no\";", b!"AuthenticationError: wrong password."), (b!"i get;", b!"7")] },
      conns := [{ loudServer.srv.conns[0] with out := b!"null\nnull\n7\n" },
        { loudServer.srv.conns[1] with inbuf := [], out := b!"AuthenticationError: not authenticated.\nAuthenticationError: wrong password.\n" }] },
    ⟨loudServer.console.text ++ b!"[2026-11", false⟩⟩, by kernel_rfl, rfl, rfl⟩

example [StdSort] : ∃ log records txt, Explains b!"pw" loud (loudEvents.map Shown.event) loudServer.srv log ∧
    List.Forall₂ RecordOf (log.filter executed) records ∧ LogText records txt ∧ loudServer.console.text = txt := by
  obtain ⟨log, records, txt, h1, h2, h3, h4, _⟩ := C102_shown loud_reachable ⟨rfl, rfl⟩ rfl (by
    intro x hx
    simp only [loudEvents, List.mem_map] at hx
    obtain ⟨e, _, rfl⟩ := hx
    exact ⟨b!"2026-11-18 01:02:03", rfl, by decide, by decide⟩) loud_run
  exact ⟨log, records, txt, h1, h2, h3, by simpa using h4 rfl⟩

example [StdSort] : ∃ u, cstart b!"17" .taken (Server.init [] loud) = .goes u ∧
    u.console.text = b!"Running Knuckleball 0.1.0\nPID: 17\n\n" := ⟨_, rfl, rfl⟩

end Knuckle.Props
