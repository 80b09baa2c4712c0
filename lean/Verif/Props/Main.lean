/-
C63: how the server is started.
-/
import Verif.Model.Main
import Verif.Proofs.Log
import Verif.Props.Server
import Verif.Spec.Reals

namespace Knuckle.Props

open Spec

section
variable {opens : Str → Bool} {binds : Bool} {o : CommandLine} {es : List Event} {s srv : Server}

/-- C63: the server serves exactly if the command line is valid, help is not asked for, a port is given, and it can be bound. -/
theorem C63_when_it_serves (cl : Option CommandLine) : (∃ s, main opens binds cl = .serving s) ↔
    binds = true ∧ ∃ o p, cl = some o ∧ o.help = false ∧ o.port = some p := by
  cases cl with
  | none => simp [main]
  | some o => cases h1 : o.help <;> cases h2 : o.port <;> cases binds <;> simp [main, h1, h2]

/-- C63: help wins over everything else, also over a missing port. -/
theorem C63_help (h : o.help = true) : main opens binds (some o) = .usage := by simp [main, h]

theorem main_serving (h : main opens binds (some o) = .serving s) : s = Server.init (o.password.getD [])
    (Ctx.init (o.floatPrecision.getD 3) (o.floatComparisonTolerance.getD defaultTolerance)
      (o.logfile.getD [] != [] && opens (o.logfile.getD [])) o.quiet) := by
  simp only [main] at h
  split at h
  · cases h
  · split at h
    · cases h
    · split at h
      · cases h
      · injection h with h; exact h.symm

theorem defaultTolerance_single : defaultTolerance.toF32 = defaultTolerance := by kernel_rfl

attribute [local irreducible] defaultTolerance

/-- C63: whatever the options, the server starts with no connections and no variables, in a state that is one of those all other properties are
about (a tolerance given on the command line is a `float`). -/
theorem C63_initial_state [StdSort] (ht : ∀ x, o.floatComparisonTolerance = some x → x.toF32 = x)
    (h : main opens binds (some o) = .serving s) :
    Reachable s.ctx ∧ s = Server.init (o.password.getD []) s.ctx ∧ s.ctx.vars = [] ∧ s.ctx.fileLog = [] ∧ s.ctx.stdoutLog = [] := by
  subst_vars
  rw [main_serving h]
  refine ⟨.init _ _ _ _ ?_, rfl, rfl, rfl, rfl⟩
  cases hx : o.floatComparisonTolerance with
  | none => exact defaultTolerance_single
  | some x => exact ht x hx

/-- C63: if no password is given every connection is authenticated from the beginning, and no request, whatever the clients do, is answered that the
client is not authenticated. -/
theorem C63_no_password_no_protection [StdSort] (ht : ∀ x, o.floatComparisonTolerance = some x → x.toF32 = x)
    (h : main opens binds (some o) = .serving s) (hp : o.password = none) (hr : run s es = some (.done srv)) :
    (∀ k ∈ srv.conns, k.sess.authed = true) ∧ ∃ log, Explains [] s.ctx es srv log ∧
      ∀ q ∈ log, ¬ ToConnection q.line → q.reply ≠ b!"AuthenticationError: not authenticated." := by
  obtain ⟨h1, h2, _⟩ := C63_initial_state ht h
  rw [hp] at h2
  rw [h2] at hr
  obtain ⟨log, h3⟩ := C44_serialized h1 hr
  refine ⟨?_, log, h3, ?_⟩
  · intro k hk
    obtain ⟨i, hi⟩ := List.mem_iff_getElem?.1 hk
    exact ((h3.session i k hi).1).2 (.inl rfl)
  · intro q hq hC e
    obtain ⟨l, l', rfl⟩ := List.append_of_mem hq
    exact (C41_only_the_password h1 h3.serial hC).1 e (.inl rfl)

/-- C63: if no settings are given, the first client that asks for them gets `3` and `0.000` (the tolerance is not zero, but is printed so). -/
theorem C63_default_settings [StdSort] (h : main opens binds (some o) = .serving s) (hp : o.password = none)
    (h1 : o.floatPrecision = none) (h2 : o.floatComparisonTolerance = none) :
    ∃ srv k, run s [.accept, .recv 0 b!"Context getFloatPrecision;\nContext getFloatComparisonTolerance;\n", .read 0, .wrote 0, .read 0, .wrote 0] =
      some (.done srv) ∧ srv.conns = [k] ∧ k.out = b!"3\n0.000\n" := by
  rw [main_serving h, hp, h1, h2]
  generalize (o.logfile.getD [] != [] && opens (o.logfile.getD [])) = f
  generalize o.quiet = q
  have hf : ∀ f q, run (Server.init [] (Ctx.init 3 defaultTolerance f q))
      [.accept, .recv 0 b!"Context getFloatPrecision;\nContext getFloatComparisonTolerance;\n", .read 0, .wrote 0, .read 0, .wrote 0] =
      some (.done ⟨[], { Ctx.init 3 defaultTolerance f q with
        fileLog := if f then [(b!"Context getFloatPrecision;", b!"3"), (b!"Context getFloatComparisonTolerance;", b!"0.000")] else [],
        stdoutLog := if !f && !q then [(b!"Context getFloatPrecision;", b!"3"), (b!"Context getFloatComparisonTolerance;", b!"0.000")] else [] },
        [⟨⟨true, true⟩, [], .reading, b!"3\n0.000\n"⟩], true⟩) := by
    intro f q
    cases f <;> cases q <;> kernel_rfl
  exact ⟨_, _, hf f q, rfl, rfl⟩

/-- C63: the default tolerance is the single nearest to 10⁻⁷. -/
theorem C63_default_tolerance : number defaultTolerance = some (14073749 / 2 ^ 47) := by
  have h : defaultTolerance = .fin false (14073749 * 2 ^ 1027) := by kernel_rfl
  rw [h]
  simp only [number, Bool.false_eq_true, if_false, Option.some.injEq]
  rw [show (2 : ℚ) ^ 1074 = 2 ^ 47 * 2 ^ 1027 by rw [← pow_add], Nat.cast_mul, Nat.cast_pow]
  exact mul_div_mul_right _ _ (pow_ne_zero _ two_ne_zero)

/-- C63: a client of a server without a password can cause undefined behaviour with a single short request. -/
theorem C63_no_password_undefined [StdSort] (h : main opens binds (some o) = .serving s) (hp : o.password = none) :
    run s [.accept, .recv 0 b!"Integer create: i withValue: 2147483648;\n", .read 0] = some .ub := by
  rw [main_serving h, hp]
  have hx : ∀ c, run (Server.init [] c) [.accept, .recv 0 b!"Integer create: i withValue: 2147483648;\n", .read 0] = some .ub := by
    intro c; kernel_rfl
  exact hx _

/-- C63: with a password undefined behaviour needs, apart from writes that the kernel takes only partly, a request of a client that has presented the password. -/
theorem C63_password_protects [StdSort] (ht : ∀ x, o.floatComparisonTolerance = some x → x.toF32 = x) {p : Str}
    (h : main opens binds (some o) = .serving s) (hp : o.password = some p) (hp' : p ≠ []) (hr : run s es = some .ub) (hw : ∀ i, .wroteShort i ∉ es) :
    ∃ es₁ i es₂ srv log, es = es₁ ++ .read i :: es₂ ∧ run s es₁ = some (.done srv) ∧ Explains p s.ctx es₁ srv log ∧
      ∃ q ∈ log, q.conn = i ∧ Presents p q.line := by
  obtain ⟨h1, h2, _⟩ := C63_initial_state ht h
  rw [hp] at h2
  have h2 : s = Server.init p s.ctx := h2
  have first : ∀ (es : List Event) (s : Server), run s es = some .ub → ∃ es₁ e es₂ srv, es = es₁ ++ e :: es₂ ∧ run s es₁ = some (.done srv) ∧
      step srv e = some .ub := by
    intro es
    induction es with
    | nil => intro s h; cases h
    | cons e es ih =>
      intro s h
      simp only [run] at h
      split at h
      · cases h
      · rename_i he; exact ⟨[], e, es, s, rfl, rfl, he⟩
      · rename_i s' he
        obtain ⟨es₁, e', es₂, srv, rfl, k1, k2⟩ := ih s' h
        exact ⟨e :: es₁, e', es₂, srv, rfl, by simp only [run, he]; exact k1, k2⟩
  obtain ⟨es₁, e, es₂, srv, rfl, k1, k2⟩ := first es s hr
  have k1' := k1
  rw [h2] at k1'
  obtain ⟨log, h3⟩ := C44_serialized h1 k1'
  cases e with
  | read i =>
    refine ⟨es₁, i, es₂, srv, log, rfl, k1, h3, ?_⟩
    simp only [step] at k2
    split at k2
    · rename_i k hk
      split at k2
      · split at k2
        · rename_i line rest _
          have hs := h3.session i k hk
          rcases handleLine_cases srv i k line rest _ rfl (reachable_inv (serial_reachable h1 h3.serial)) with
            ⟨_, _, g3⟩ | ⟨g1, g2, g3⟩ | ⟨_, c', t, r, _, g3⟩ <;> rw [g3] at k2
          · cases k2
          · rcases g1 with g1 | ⟨n, l, g1⟩
            · exact (hs.1.1 g1).resolve_left hp'
            · obtain ⟨t, e⟩ := toConnection_reply srv.ctx k.sess g1 (pwd := srv.pwd)
              rw [e] at g2; cases g2
          · cases k2
        · cases k2
      · cases k2
    · cases k2
  | wroteShort i => exact absurd (by simp) (hw i)
  | accept => simp only [step] at k2; split at k2 <;> cases k2
  | acceptErr => simp only [step] at k2; split at k2 <;> cases k2
  | recv i b => simp only [step] at k2; split at k2 <;> [(split at k2 <;> cases k2); cases k2]
  | readErr i => simp only [step] at k2; split at k2 <;> [(split at k2 <;> cases k2); cases k2]
  | wrote i => simp only [step] at k2; split at k2 <;> [(split at k2 <;> [(split at k2 <;> cases k2); cases k2]); cases k2]
  | writeErr i => simp only [step] at k2; split at k2 <;> [(split at k2 <;> cases k2); cases k2]

/-- C63: a log file that cannot be opened is not reported: then nothing is written to it, and in quiet mode there is no log at all, whatever happens. -/
theorem C63_log_file_that_cannot_be_opened [StdSort] (ht : ∀ x, o.floatComparisonTolerance = some x → x.toF32 = x)
    (h : main opens binds (some o) = .serving s) (ho : opens (o.logfile.getD []) = false) (hr : run s es = some (.done srv)) :
    srv.ctx.fileLog = [] ∧ (o.quiet = true → srv.ctx.stdoutLog = []) := by
  obtain ⟨h1, h2, h3, h4, h5⟩ := C63_initial_state ht h
  have hq : s.ctx.fileOpen = false ∧ s.ctx.quiet = o.quiet := by
    rw [main_serving h, ho]; simp [Server.init, Ctx.init]
  rw [h2] at hr
  obtain ⟨log, k⟩ := C44_serialized h1 hr
  obtain ⟨x, k2, _⟩ := serial_history k.serial
  have key : ∀ {c c' : Ctx} {x}, Reachable c → History c x c' → c.fileOpen = false → c'.fileLog = c.fileLog ∧ (c.quiet = true → c'.stdoutLog = c.stdoutLog) := by
    intro c c' x hc hh
    induction hh with
    | nil => intro _; exact ⟨rfl, fun _ => rfl⟩
    | cons he _ ih =>
      intro hf
      obtain ⟨t, _, g1, g2, g3, g4⟩ := C38_one_record_per_request hc he
      obtain ⟨g5, g6⟩ := ih (.step hc he) (g1.trans hf)
      refine ⟨by rw [g5, g3, hf]; simp, fun hqq => ?_⟩
      rw [g6 (g2.trans hqq), g4, hqq]; simp
  obtain ⟨k3, k4⟩ := key h1 k2 hq.1
  exact ⟨k3.trans h4, fun hqq => (k4 (hq.2.trans hqq)).trans h5⟩

end

/-- `knuckleball --port 4444`. -/
def plainStart : CommandLine := ⟨false, false, some 4444, none, none, none, none⟩

/-- `knuckleball --port 4444 --password pw --quiet --logfile /nowhere/log`. -/
def quietStart : CommandLine := ⟨false, true, some 4444, some b!"pw", some b!"/nowhere/log", none, none⟩

example : (∀ x, plainStart.floatComparisonTolerance = some x → x.toF32 = x) ∧ plainStart.password = none ∧ plainStart.floatPrecision = none ∧
    ∃ s, main (fun _ => true) true (some plainStart) = .serving s := ⟨by simp [plainStart], rfl, rfl, (C63_when_it_serves _).2 ⟨rfl, _, _, rfl, rfl, rfl⟩⟩

/-- A client with the password can cause undefined behaviour. -/
example [StdSort] : (∀ x, quietStart.floatComparisonTolerance = some x → x.toF32 = x) ∧ quietStart.password = some b!"pw" ∧
    ∃ s, main (fun _ => false) true (some quietStart) = .serving s ∧
      run s [.accept, .recv 0 b!"Connection authenticateWithPassword: \"pw\";\nInteger create: i withValue: 2147483648;\n", .read 0, .wrote 0, .read 0] =
        some .ub :=
  ⟨by simp [quietStart], rfl, Server.init b!"pw" (Ctx.init 3 defaultTolerance false true), by kernel_rfl, by kernel_rfl⟩

example [StdSort] : ∃ s, main (fun _ => false) true (some quietStart) = .serving s ∧ s.pwd = b!"pw" ∧ ∃ srv,
    run s [.accept, .recv 0 b!"Connection authenticateWithPassword: \"pw\";\n", .read 0, .wrote 0] = some (.done srv) ∧ srv.ctx.stdoutLog = [] :=
  ⟨Server.init b!"pw" (Ctx.init 3 defaultTolerance false true), by kernel_rfl, rfl,
    ⟨b!"pw", Ctx.init 3 defaultTolerance false true, [⟨⟨true, true⟩, [], .reading, b!"null\n"⟩], true⟩, by kernel_rfl, rfl⟩

end Knuckle.Props
