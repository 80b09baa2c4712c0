/-
C93: a log file that cannot be written, and a log file that several processes write.
-/
import Verif.Spec.LogFile
import Verif.Props.Crash

namespace Knuckle.Props

open Spec

/-! ### The stream -/

theorem put_bad {f : LogFile} {t : Str} {d : Disk} (h : f.good = false) : f.put t d = f := by
  cases d <;> simp [LogFile.put, h]

theorem writeRecord_bad {f : LogFile} {t : Str} {r : Str × Str} {d : Nat → Disk} (h : f.good = false) : f.writeRecord t r d = f := by
  simp only [LogFile.writeRecord, put_bad h]

/-- After writing some of the line `line`, on a file that had `f₀`: all is there, or an error has occurred. -/
def Partly (f₀ done line : Str) (any : Prop) (f : LogFile) : Prop :=
  (f.good = true ∧ f.file = f₀ ++ done) ∨ (f.good = false ∧ any ∧ ∃ p, p <+: line ∧ f.file = f₀ ++ p)

theorem partly_put {f₀ done t rest : Str} {any : Prop} {f : LogFile} {d : Disk} (h : Partly f₀ done (done ++ (t ++ rest)) any f) (hd : d ≠ none → any) :
    Partly f₀ (done ++ t) (done ++ t ++ rest) any (f.put t d) := by
  rcases h with ⟨h1, h2⟩ | ⟨h1, h2, h3⟩
  · cases d with
    | none => left; simp [LogFile.put, h1, h2]
    | some n =>
      right
      refine ⟨by simp [LogFile.put, h1], hd (by simp), done ++ t.take n, ?_, by simp [LogFile.put, h1, h2]⟩
      rw [List.append_assoc, List.prefix_append_right_inj]
      exact (List.take_prefix n t).trans (List.prefix_append _ _)
  · right
    rw [put_bad h1]
    rw [List.append_assoc]
    exact ⟨h1, h2, h3⟩

theorem writeRecord_cases {f : LogFile} {t : Str} {r : Str × Str} {d : Nat → Disk} (h : f.good = true) :
    Partly f.file (logLine t r) (logLine t r) (¬ ∀ i, d i = none) (f.writeRecord t r d) := by
  have hd : ∀ i, d i ≠ none → ¬ ∀ i, d i = none := fun i hi h => hi (h i)
  have h0 : Partly f.file [] ([] ++ (t ++ (b!" " ++ (r.1 ++ (b!" -> " ++ (r.2 ++ (b!"\n" ++ []))))))) (¬ ∀ i, d i = none) f := .inl ⟨h, by simp⟩
  have h6 := partly_put (partly_put (partly_put (partly_put (partly_put (partly_put h0 (hd 0)) (hd 1)) (hd 2)) (hd 3)) (hd 4)) (hd 5)
  have e : logLine t r = [] ++ t ++ b!" " ++ r.1 ++ b!" -> " ++ r.2 ++ b!"\n" := by simp [logLine]
  rw [e]
  rw [List.append_nil] at h6
  exact h6

theorem writeRecord_taken {f : LogFile} {t : Str} {r : Str × Str} {d : Nat → Disk} (h : f.good = true) (hd : ∀ i, d i = none) :
    f.writeRecord t r d = ⟨f.file ++ logLine t r, true⟩ := by
  rcases writeRecord_cases (t := t) (r := r) (d := d) h with ⟨h1, h2⟩ | ⟨_, h2, _⟩
  · cases hf : f.writeRecord t r d; rw [hf] at h1 h2; cases h1; cases h2; rfl
  · exact absurd hd h2

section
variable [StdSort] {pwd : Str} {c : Ctx} {prec : Int} {eps : Fl} {q : Bool} {before : Str} {xs : List Timed} {s s' : LServer}

theorem lstep_srv (s : LServer) (x : Timed) : serverOf (lstep s x) = step s.srv x.event := by
  unfold lstep
  cases step s.srv x.event with
  | none => rfl
  | some o => cases o <;> rfl

theorem lrun_srv (s : LServer) (xs : List Timed) : serverOf (lrun s xs) = run s.srv (xs.map Timed.event) := by
  induction xs generalizing s with
  | nil => rfl
  | cons x xs ih =>
    have h := lstep_srv s x
    simp only [lrun, run, List.map_cons]
    rw [← h]
    cases hx : lstep s x with
    | none => rfl
    | some o => cases o with
      | ub => rfl
      | done t => exact ih t

theorem lrun_run (h : lrun s xs = some (.done s')) : run s.srv (xs.map Timed.event) = some (.done s'.srv) := by
  rw [← lrun_srv, h]; rfl

theorem lrun_append (s : LServer) (a b : List Timed) : lrun s (a ++ b) = match lrun s a with
    | none => none
    | some .ub => some .ub
    | some (.done s') => lrun s' b := by
  induction a generalizing s with
  | nil => rfl
  | cons x xs ih =>
    simp only [List.cons_append, lrun]
    cases lstep s x with
    | none => rfl
    | some o => cases o with
      | ub => rfl
      | done t => exact ih t

theorem lrun_snoc {x : Timed} (h : lrun s (xs ++ [x]) = some (.done s')) : ∃ t, lrun s xs = some (.done t) ∧ lstep t x = some (.done s') := by
  rw [lrun_append] at h
  cases hx : lrun s xs with
  | none => rw [hx] at h; cases h
  | some o => cases o with
    | ub => rw [hx] at h; cases h
    | done t =>
      rw [hx] at h
      refine ⟨t, rfl, ?_⟩
      simp only [lrun] at h
      cases hy : lstep t x with
      | none => rw [hy] at h; cases h
      | some o => cases o with
        | ub => rw [hy] at h; cases h
        | done u => rw [hy] at h; cases h; rfl

theorem run_reachable {es : List Event} {t : Server} (hc : Reachable c) (h : run (Server.init pwd c) es = some (.done t)) : Reachable t.ctx := by
  obtain ⟨log, hl⟩ := C44_serialized hc h
  exact serial_reachable hc hl.serial

/-- One event writes nothing, or one line. -/
theorem lstep_cases {x : Timed} (hc : Reachable s.srv.ctx) (h : lstep s x = some (.done s')) :
    step s.srv x.event = some (.done s'.srv) ∧
    ((s'.srv.ctx.fileLog = s.srv.ctx.fileLog ∧ s'.log = s.log) ∨
      ∃ r, s'.srv.ctx.fileLog = s.srv.ctx.fileLog ++ [r] ∧ s'.log = s.log.writeRecord x.stamp r x.disk) := by
  have h1 := lstep_srv s x
  rw [h] at h1
  refine ⟨h1.symm, ?_⟩
  have h2 : s'.log = (s'.srv.ctx.fileLog.drop s.srv.ctx.fileLog.length).foldl (fun f r => f.writeRecord x.stamp r x.disk) s.log := by
    unfold lstep at h
    rw [← h1] at h
    exact (congrArg LServer.log (Outcome.done.inj (Option.some.inj h))).symm
  rcases C74_one_line_at_a_time hc h1.symm with h3 | ⟨r, h3⟩
  · left
    refine ⟨h3, ?_⟩
    rw [h2, h3]
    simp
  · right
    refine ⟨r, h3, ?_⟩
    rw [h2, h3]
    simp

theorem serial_stdout {log : List Request} {c' : Ctx} (hc : Reachable c) (ho : c.fileOpen = true) (h : Serial pwd c log c') :
    c'.stdoutLog = c.stdoutLog := by
  induction h with
  | nil => rfl
  | executed h1 _ _ _ he ih =>
    obtain ⟨_, _, _, _, _, h2⟩ := C38_one_record_per_request (serial_reachable hc h1) he
    rw [h2, serial_open hc h1, ho]
    simpa using ih
  | ignored _ _ _ _ ih => exact ih

/-- What is in the file, after any history. -/
theorem file_cases (he : eps.toF32 = eps) (hst : ∀ x ∈ xs, Stamp x.stamp)
    (h : lrun (LServer.init pwd (Ctx.init prec eps true q) before) xs = some (.done s)) :
    (s.log.good = true ∧ ∃ t, LogText s.srv.ctx.fileLog t ∧ s.log.file = before ++ t) ∨
    (s.log.good = false ∧ ∃ xs₁ x xs₂ s₁ s₂ r t p, xs = xs₁ ++ x :: xs₂ ∧ ¬ AllTaken x ∧
      run (Server.init pwd (Ctx.init prec eps true q)) (xs₁.map Timed.event) = some (.done s₁) ∧
      step s₁ x.event = some (.done s₂) ∧ s₂.ctx.fileLog = s₁.ctx.fileLog ++ [r] ∧ LogText s₁.ctx.fileLog t ∧
      p <+: logLine x.stamp r ∧ s.log.file = before ++ (t ++ p)) := by
  induction xs using List.reverseRecOn generalizing s with
  | nil =>
    cases h
    exact .inl ⟨rfl, [], ⟨[], rfl, by simp, rfl⟩, by simp [LServer.init, LogFile.append]⟩
  | append_singleton xs x ih =>
    obtain ⟨u, h1, h2⟩ := lrun_snoc h
    have hru : run (Server.init pwd (Ctx.init prec eps true q)) (xs.map Timed.event) = some (.done u.srv) := lrun_run h1
    have hcu := run_reachable (.init _ _ _ _ he) hru
    obtain ⟨h3, h4⟩ := lstep_cases hcu h2
    rcases ih (fun y hy => hst y (by simp [hy])) h1 with ⟨g, t, ht, hf⟩ | ⟨g, xs₁, x₁, xs₂, s₁, s₂, r, t, p, e, k⟩
    · rcases h4 with ⟨h4, h5⟩ | ⟨r, h4, h5⟩
      · left
        rw [h4, h5]
        exact ⟨g, t, ht, hf⟩
      · rcases writeRecord_cases (t := x.stamp) (r := r) (d := x.disk) g with ⟨k1, k2⟩ | ⟨k1, k2, p, k3, k4⟩
        · left
          refine ⟨by rw [h5]; exact k1, t ++ logLine x.stamp r, ?_, by rw [h5, k2, hf, List.append_assoc]⟩
          rw [h4]
          exact logText_snoc ht (hst x (by simp))
        · right
          refine ⟨by rw [h5]; exact k1, xs, x, [], u.srv, s.srv, r, t, p, rfl, k2, hru, h3, h4, ht, k3, by rw [h5, k4, hf, List.append_assoc]⟩
    · right
      have hl : s.log = u.log := by
        rcases h4 with ⟨_, h5⟩ | ⟨r, _, h5⟩
        · exact h5
        · rw [h5, writeRecord_bad g]
      rw [hl]
      exact ⟨g, xs₁, x₁, xs₂ ++ [x], s₁, s₂, r, t, p, by rw [e]; simp, k⟩

/-- C93: the clients do not notice: whatever happens to the lines of the log, the server does exactly what it does when all of them are
written: the same events are possible, with the same effect on all connections and all data, and the same undefined behaviour if any. -/
theorem C93_clients_do_not_notice (pwd : Str) (c : Ctx) (before : Str) (xs : List Timed) :
    serverOf (lrun (LServer.init pwd c before) xs) = run (Server.init pwd c) (xs.map Timed.event) :=
  lrun_srv _ _

/-- C93: what was in the file at the start is still there, in front. -/
theorem C93_nothing_overwritten (he : eps.toF32 = eps) (hst : ∀ x ∈ xs, Stamp x.stamp)
    (h : lrun (LServer.init pwd (Ctx.init prec eps true q) before) xs = some (.done s)) : before <+: s.log.file := by
  rcases file_cases he hst h with ⟨_, t, _, e⟩ | ⟨_, _, _, _, _, _, _, t, p, _, _, _, _, _, _, _, e⟩
  · exact ⟨t, e.symm⟩
  · exact ⟨t ++ p, e.symm⟩

/-- C93: without errors the file has, after what was in it, a line for each request that was executed. -/
theorem C93_complete (he : eps.toF32 = eps) (hst : ∀ x ∈ xs, Stamp x.stamp) (hd : ∀ x ∈ xs, AllTaken x)
    (h : lrun (LServer.init pwd (Ctx.init prec eps true q) before) xs = some (.done s)) :
    ∃ t log, s.log.file = before ++ t ∧ LogText s.srv.ctx.fileLog t ∧
      Explains pwd (Ctx.init prec eps true q) (xs.map Timed.event) s.srv log ∧ List.Forall₂ RecordOf (log.filter executed) s.srv.ctx.fileLog := by
  obtain ⟨log, h1, h2⟩ := C74_logged_before_answered (.init _ _ _ _ he) rfl rfl (lrun_run h)
  rcases file_cases he hst h with ⟨_, t, ht, e⟩ | ⟨_, xs₁, x, xs₂, _, _, _, _, _, e, hx, _⟩
  · exact ⟨t, log, e, ht, h1, h2⟩
  · exact absurd (hd x (by rw [e]; simp)) hx

/-- C93: an error is final: after an incomplete line nothing is written to the file any more, although the disk may have room again, and
nothing is written to standard output instead. -/
theorem C93_never_again (he : eps.toF32 = eps) {ys : List Timed} (hst : ∀ x ∈ xs, Stamp x.stamp)
    (h : lrun (LServer.init pwd (Ctx.init prec eps true q) before) xs = some (.done s))
    (hl : ∀ t, LogText s.srv.ctx.fileLog t → s.log.file ≠ before ++ t) (h' : lrun s ys = some (.done s')) :
    s'.log.file = s.log.file ∧ s'.srv.ctx.stdoutLog = [] := by
  have bad : s.log.good = false := by
    rcases file_cases he hst h with ⟨_, t, ht, e⟩ | ⟨g, _⟩
    · exact absurd e (hl t ht)
    · exact g
  constructor
  · suffices s'.log = s.log by rw [this]
    induction ys using List.reverseRecOn generalizing s' with
    | nil => cases h'; rfl
    | append_singleton ys y ih =>
      obtain ⟨u, h1, h2⟩ := lrun_snoc h'
      have h3 := ih h1
      have hall : lrun (LServer.init pwd (Ctx.init prec eps true q) before) (xs ++ ys) = some (.done u) := by
        rw [lrun_append, h]; exact h1
      rcases (lstep_cases (run_reachable (.init _ _ _ _ he) (lrun_run hall)) h2).2 with ⟨_, k⟩ | ⟨r, _, k⟩
      · rw [k, h3]
      · rw [k, writeRecord_bad (by rw [h3]; exact bad), h3]
  · have : lrun (LServer.init pwd (Ctx.init prec eps true q) before) (xs ++ ys) = some (.done s') := by
      rw [lrun_append, h]; exact h'
    obtain ⟨log, hlog⟩ := C44_serialized (.init _ _ _ _ he) (lrun_run this)
    exact serial_stdout (.init _ _ _ _ he) rfl hlog.serial

omit [StdSort] in
/-- A line of which a part is missing has no newline. -/
theorem cut_line {t p u : Str} {x : Str} {r : Str × Str} {l : List (Str × Str)} (ht : LogText l t) (hx : Stamp x)
    (hr : (10 : Byte) ∉ r.1 ∧ (10 : Byte) ∉ r.2) (hp : p <+: logLine x r) (hu : CompleteLines (t ++ p) u) :
    u = t ∨ u = t ++ logLine x r := by
  obtain ⟨rest, e, hrest, hend⟩ := hu
  obtain ⟨p', hp⟩ := hp
  obtain ⟨z, hz, hz'⟩ := logLine_end x r
  have hz' := hz' (stamp_line hx) hr.1 hr.2
  rcases List.eq_nil_or_concat p' with rfl | ⟨w, y, rfl⟩
  · rw [List.append_nil] at hp
    subst hp
    right
    exact complete_unique (b := []) (by simpa using e.symm) hrest (by simp) hend (logText_ended (logText_snoc (y := r) ht hx))
  · rw [List.concat_eq_append, ← List.append_assoc, hz] at hp
    have hpz := (List.append_inj' hp rfl).1
    have hpn : c!"\n" ∉ p := fun hm => hz' (hpz ▸ List.mem_append_left _ hm)
    left
    exact complete_unique e.symm hrest hpn hend (logText_ended ht)

omit [StdSort] in
theorem prefix_before {α : Type} {a l₁ l₂ : List α} {x : α} (h : a <+: l₁ ++ x :: l₂) (hx : x ∉ a) : a <+: l₁ := by
  rcases Nat.lt_or_ge l₁.length a.length with hlt | hge
  · exfalso
    have : (l₁ ++ [x]) <+: a := by
      refine List.prefix_of_prefix_length_le (l₃ := l₁ ++ x :: l₂) ⟨l₂, by simp⟩ h (by simp; omega)
    exact hx (this.subset (by simp))
  · exact List.prefix_of_prefix_length_le h (List.prefix_append _ _) hge

/-- C93: what is saved: whatever errors there were and whenever the process ended, the complete lines after those that were in the file before are the
log of all requests executed up to some point of the history, which is not before the first error; sending them again, except
those to `Connection`, to a new server with the same settings gives the data the server had at that point. -/
theorem C93_what_is_saved {part u : Str} (he : eps.toF32 = eps) (hst : ∀ x ∈ xs, Stamp x.stamp)
    (h : lrun (LServer.init pwd (Ctx.init prec eps true q) before) xs = some (.done s)) (hf : s.log.file = before ++ part)
    (hu : CompleteLines part u) :
    ∃ xs' t, xs' <+: xs ∧ (∀ a, a <+: xs → (∀ x ∈ a, AllTaken x) → a <+: xs') ∧
      run (Server.init pwd (Ctx.init prec eps true q)) (xs'.map Timed.event) = some (.done t) ∧ LogText t.ctx.fileLog u ∧
      ∀ l, Removed (fun r => ToConnection r.1) t.ctx.fileLog l → ∀ pwd' sess d, SameData (Ctx.init prec eps true q) d →
        ∃ d', Replay pwd' sess d l d' ∧ SameData t.ctx d' := by
  have replay : ∀ {es' t}, run (Server.init pwd (Ctx.init prec eps true q)) es' = some (.done t) →
      ∀ l, Removed (fun r => ToConnection r.1) t.ctx.fileLog l → ∀ pwd' sess d, SameData (Ctx.init prec eps true q) d →
        ∃ d', Replay pwd' sess d l d' ∧ SameData t.ctx d' := by
    intro es' t hr l hl pwd' sess d hd
    obtain ⟨log, h1⟩ := C44_serialized (.init _ _ _ _ he) hr
    obtain ⟨x, h2, _, _⟩ := serial_history h1.serial
    obtain ⟨l', h3, h4⟩ := C62_log_can_be_replayed (.init _ _ _ _ he) h2 rfl hd
    have h5 : t.ctx.fileLog = l' := h3
    rw [h5] at hl
    exact h4 l hl pwd' sess
  rcases file_cases he hst h with ⟨_, t, ht, e⟩ | ⟨_, xs₁, x, xs₂, s₁, s₂, r, t, p, e, hx, hr, hs, hl, ht, hp, e'⟩
  · rw [hf, List.append_cancel_left_eq] at e
    subst e
    obtain ⟨rest, e, hrest, hend⟩ := hu
    have := complete_unique (b := []) (v := part) (by simpa using e.symm) hrest (by simp) hend (logText_ended ht)
    subst this
    exact ⟨xs, s.srv, List.prefix_rfl, fun a ha _ => ha, lrun_run h, ht, replay (lrun_run h)⟩
  · rw [hf, List.append_cancel_left_eq] at e'
    subst e'
    have hr' : run (Server.init pwd (Ctx.init prec eps true q)) ((xs₁ ++ [x]).map Timed.event) = some (.done s₂) := by
      rw [List.map_append, run_append, hr]; exact (run_single s₁ x.event).trans hs
    have hg := run_log_good he hr' r (by rw [hl]; simp)
    have hxs := hst x (by rw [e]; simp)
    have early : ∀ a, a <+: xs → (∀ x ∈ a, AllTaken x) → a <+: xs₁ := fun a ha h =>
      prefix_before (e ▸ ha) fun hm => hx (h x hm)
    rcases cut_line ht hxs ⟨hg.2.1, hg.2.2⟩ hp hu with rfl | rfl
    · exact ⟨xs₁, s₁, ⟨_, e.symm⟩, early, hr, ht, replay hr⟩
    · refine ⟨xs₁ ++ [x], s₂, ⟨xs₂, by rw [e]; simp⟩, fun a ha h => (early a ha h).trans (List.prefix_append _ _), hr', ?_, replay hr'⟩
      rw [hl]
      exact logText_snoc ht hxs

/-! ### Restarts -/

omit [StdSort] in
theorem logText_append {l l' : List (Str × Str)} {t t' : Str} (h : LogText l t) (h' : LogText l' t') : LogText (l ++ l') (t ++ t') := by
  obtain ⟨a, h1, h2, rfl⟩ := h
  obtain ⟨b, h3, h4, rfl⟩ := h'
  refine ⟨a ++ b, by simp [h1, h3], ?_, ?_⟩
  · intro x hx
    rcases List.mem_append.1 hx with hx | hx
    · exact h2 x hx
    · exact h4 x hx
  · unfold logLines
    rw [List.zipWith_append h1, List.flatten_append]

theorem lives_good {ls : List (Life × Server)} {f g : Str} (h : Lives f ls g) (hc : ∀ a ∈ ls, a.1.eps.toF32 = a.1.eps) :
    ∀ r ∈ recordsOf ls, Answered r.1 r.2 ∧ (10 : Byte) ∉ r.1 ∧ (10 : Byte) ∉ r.2 := by
  induction h with
  | nil => intro r hr; cases hr
  | cons h1 _ ih =>
    intro r hr
    simp only [recordsOf, List.map_cons, List.flatten_cons, List.mem_append] at hr
    rcases hr with hr | hr
    · exact run_log_good (hc _ (List.mem_cons_self ..)) (lrun_run h1) r hr
    · exact ih (fun a ha => hc a (List.mem_cons_of_mem _ ha)) r hr

/-- C93: the file goes on: the log of several processes, one after the other with the same file, none of which was killed in the middle of a line, is the log
of all their records, after what was in the file in the beginning. -/
theorem C93_restarts {ls : List (Life × Server)} {f : Str} (h : Lives before ls f) (hc : CleanLives ls) :
    ∃ t, f = before ++ t ∧ LogText (recordsOf ls) t := by
  induction h with
  | nil => exact ⟨[], by simp, [], rfl, by simp, rfl⟩
  | cons h1 _ ih =>
    obtain ⟨t', e', ht'⟩ := ih fun a ha => hc a (List.mem_cons_of_mem _ ha)
    obtain ⟨he, hx⟩ := hc _ (List.mem_cons_self ..)
    obtain ⟨t, _, e, ht, _⟩ := C93_complete he (fun x m => (hx x m).1) (fun x m => (hx x m).2) h1
    exact ⟨t ++ t', by rw [e', e, List.append_assoc], logText_append ht ht'⟩

/-- C93: so such a file, if it was new, tells all the requests and replies, in order. -/
theorem C93_restarts_unambiguous {ls ls' : List (Life × Server)} {f : Str} (h : Lives [] ls f) (h' : Lives [] ls' f) (hc : CleanLives ls)
    (hc' : CleanLives ls') : recordsOf ls = recordsOf ls' := by
  obtain ⟨t, e, ht⟩ := C93_restarts h hc
  obtain ⟨t', e', ht'⟩ := C93_restarts h' hc'
  have : t = t' := by simpa using e.symm.trans e'
  subst this
  exact log_unique (lives_good h fun a ha => (hc a ha).1) (lives_good h' fun a ha => (hc' a ha).1) ht ht'

end

/-! ### Examples -/

/-- A process with the default settings and no password. -/
def lifeOf (xs : List Timed) : Life := ⟨[], 3, .fin false 0, true, xs⟩

/-- An event at some time, at which everything is written. -/
def onTime (e : Event) : Timed := ⟨e, b!"[2026-11-18 01:02:03]", fun _ => none⟩

/-- A client creates a variable. -/
def oneCreation : List Timed := [onTime .accept, onTime (.recv 0 b!"Integer create: i withValue: 1;\n"), onTime (.read 0), onTime (.wrote 0)]

/-- The server after that. -/
def oneCreated : Server :=
  ⟨[], { Ctx.init 3 (.fin false 0) true true with vars := [(b!"i", .integer 1)], fileLog := [(b!"Integer create: i withValue: 1;", b!"null")] },
    [⟨⟨true, true⟩, [], .reading, b!"null\n"⟩], true⟩

/-- The log after that. -/
def oneLine : Str := b!"[2026-11-18 01:02:03] Integer create: i withValue: 1; -> null\n"

theorem oneCreation_run [StdSort] (before : Str) :
    lrun ((lifeOf oneCreation).start before) (lifeOf oneCreation).events = some (.done ⟨oneCreated, ⟨before ++ oneLine, true⟩⟩) := by
  have h : ∀ f : Str, (LogFile.mk f true).writeRecord b!"[2026-11-18 01:02:03]" (b!"Integer create: i withValue: 1;", b!"null") (fun _ => none) =
      ⟨f ++ oneLine, true⟩ := fun f => (writeRecord_taken rfl fun _ => rfl).trans (by rfl)
  refine Eq.trans (b := some (.done ⟨oneCreated, (LogFile.mk before true).writeRecord b!"[2026-11-18 01:02:03]"
    (b!"Integer create: i withValue: 1;", b!"null") (fun _ => none)⟩)) (by kernel_rfl) (by rw [h])

theorem onTime_clean (e : Event) : Stamp (onTime e).stamp ∧ AllTaken (onTime e) :=
  ⟨⟨b!"2026-11-18 01:02:03", rfl, by decide, by decide⟩, fun _ => rfl⟩

theorem lifeOf_clean {xs : List Timed} (h : xs = oneCreation ∨ xs = []) :
    (lifeOf xs).eps.toF32 = (lifeOf xs).eps ∧ ∀ x ∈ (lifeOf xs).events, Stamp x.stamp ∧ AllTaken x := by
  refine ⟨by show (Fl.fin false 0).toF32 = .fin false 0; decide +kernel, ?_⟩
  rcases h with rfl | rfl
  · intro x hx
    simp only [lifeOf, oneCreation, List.mem_cons, List.not_mem_nil, or_false] at hx
    rcases hx with rfl | rfl | rfl | rfl <;> exact onTime_clean _
  · intro x hx; cases hx

/-- C93: but the file does not tell where one process ended and the next one started, with no data: it does not determine the data (as it does if it
is new with the process, C62). -/
theorem C93_restarts_are_not_recorded [StdSort] : ∃ f a b ls ls', Lives [] (ls ++ [a]) f ∧ Lives [] (ls' ++ [b]) f ∧ CleanLives (ls ++ [a]) ∧
    CleanLives (ls' ++ [b]) ∧ (∀ x ∈ ls ++ [a] ++ ls' ++ [b], x.1.prec = 3 ∧ x.1.eps = .fin false 0 ∧ x.1.pwd = []) ∧ ¬ SameData a.2.ctx b.2.ctx := by
  refine ⟨oneLine, (lifeOf oneCreation, oneCreated), (lifeOf [], Server.init [] (Ctx.init 3 (.fin false 0) true true)), [],
    [(lifeOf oneCreation, oneCreated)], .cons (oneCreation_run []) .nil,
    .cons (oneCreation_run []) (.cons (s := ⟨_, ⟨oneLine, true⟩⟩) rfl .nil), ?_, ?_, ?_, ?_⟩
  · intro a ha
    rw [List.nil_append, List.mem_singleton] at ha
    subst ha
    exact lifeOf_clean (.inl rfl)
  · intro a ha
    simp only [List.cons_append, List.nil_append, List.mem_cons, List.not_mem_nil, or_false] at ha
    rcases ha with rfl | rfl
    · exact lifeOf_clean (.inl rfl)
    · exact lifeOf_clean (.inr rfl)
  · intro x hx
    simp only [List.cons_append, List.nil_append, List.mem_cons, List.not_mem_nil, or_false] at hx
    rcases hx with rfl | rfl | rfl <;> exact ⟨rfl, rfl, rfl⟩
  · intro h
    exact absurd h.1 (by decide +kernel)

/-- The process is killed when a client creates a string and 12 bytes of the request have been written to the log. -/
def killed : List Timed := [onTime .accept, onTime (.recv 0 b!"String create: s;\n"),
  ⟨.read 0, b!"[2026-11-18 01:02:03]", fun i => if i = 2 then some 11 else none⟩]

/-- The server when it was killed. -/
def killedThen : Server :=
  ⟨[], { Ctx.init 3 (.fin false 0) true true with vars := [(b!"s", .string [])], fileLog := [(b!"String create: s;", b!"null")] },
    [⟨⟨true, true⟩, [], .writing b!"null", []⟩], true⟩

theorem killed_run [StdSort] : lrun ((lifeOf killed).start []) (lifeOf killed).events =
    some (.done ⟨killedThen, ⟨b!"[2026-11-18 01:02:03] String crea", false⟩⟩) := by
  kernel_rfl

/-- C93: after a process was killed in the middle of a line, the first line of the next one is appended to the incomplete one: there is a request that
was executed and answered with `null` by a server with a log file, yet it is in no reading of the file. -/
theorem C93_restart_after_a_crash [StdSort] : ∃ a b f k, Lives [] [a, b] f ∧ b.2.conns[0]? = some k ∧ k.out = b!"null\n" ∧
    received 0 (b.1.events.map Timed.event) = b!"Integer create: i withValue: 1;\n" ∧ (∀ x ∈ b.1.events, AllTaken x) ∧
    ∀ rs, LogText rs f → ∀ r ∈ rs, r.1 ≠ b!"Integer create: i withValue: 1;" := by
  refine ⟨(lifeOf killed, killedThen), (lifeOf oneCreation, oneCreated), b!"[2026-11-18 01:02:03] String crea" ++ oneLine, _,
    .cons killed_run (.cons (oneCreation_run _) .nil), rfl, rfl, by decide +kernel,
    fun x hx => ((lifeOf_clean (.inl rfl)).2 x hx).2, ?_⟩
  rintro rs ⟨stamps, hlen, hst, e⟩
  cases rs with
  | nil => intro r hr; cases hr
  | cons r rs =>
    cases stamps with
    | nil => cases hlen
    | cons st sts =>
      have e1 : b!"[2026-11-18 01:02:03]" ++ (b!" String crea" ++ oneLine) =
          st ++ ((b!" " ++ (r.1 ++ (b!" -> " ++ (r.2 ++ b!"\n")))) ++ logLines sts rs) := by
        refine Eq.trans (by rfl) (e.trans ?_)
        simp [logLines, logLine]
      obtain ⟨_, e2⟩ := stamp_unique (onTime_clean .accept).1 (hst st (by simp)) e1
      have hcount := congrArg (List.count (10 : Byte)) e2
      have e3 : rs = [] := by
        cases rs with
        | nil => rfl
        | cons r' rs =>
          exfalso
          cases sts with
          | nil => simp at hlen
          | cons st' sts =>
            have k0 : List.count (10 : Byte) (b!" String crea" ++ oneLine) = 1 := by decide +kernel
            obtain ⟨z, hz, _⟩ := logLine_end st' r'
            rw [k0] at hcount
            simp only [logLines, List.zipWith_cons_cons, List.flatten_cons, hz, List.count_append] at hcount
            have : List.count (10 : Byte) b!"\n" = 1 := by decide
            have : List.count (10 : Byte) [c!"\n"] = 1 := by decide
            omega
      subst e3
      intro r' hr'
      rw [List.mem_singleton] at hr'
      subst hr'
      intro h
      rw [h] at e2
      exact absurd (congrArg (fun l : Str => l[1]?) e2) (by simp)

/-- The disk is full while the second request is logged, and has room again for the third; the clients are served. -/
example [StdSort] : ∃ s, lrun (LServer.init [] (Ctx.init 3 (.fin false 0) true true) b!"old\n")
      (oneCreation ++ [onTime (.recv 0 b!"i add: 2;\ni get;\n"), ⟨.read 0, b!"[2026-11-18 01:02:03]", fun i => if i = 4 then some 2 else none⟩,
        onTime (.wrote 0), onTime (.read 0), onTime (.wrote 0)]) = some (.done s) ∧
    s.log.file = b!"old\n[2026-11-18 01:02:03] Integer create: i withValue: 1; -> null\n[2026-11-18 01:02:03] i add: 2; -> nu" ∧
    s.srv.conns.map (·.out) = [b!"null\nnull\n3\n"] ∧ (∀ t, LogText s.srv.ctx.fileLog t → s.log.file ≠ b!"old\n" ++ t) ∧
    CompleteLines b!"[2026-11-18 01:02:03] Integer create: i withValue: 1; -> null\n[2026-11-18 01:02:03] i add: 2; -> nu" oneLine := by
  refine ⟨⟨⟨[], { Ctx.init 3 (.fin false 0) true true with vars := [(b!"i", .integer 3)], fileLog := [(b!"Integer create: i withValue: 1;", b!"null"),
      (b!"i add: 2;", b!"null"), (b!"i get;", b!"3")] }, [⟨⟨true, true⟩, [], .reading, b!"null\nnull\n3\n"⟩], true⟩,
    ⟨b!"old\n[2026-11-18 01:02:03] Integer create: i withValue: 1; -> null\n[2026-11-18 01:02:03] i add: 2; -> nu", false⟩⟩,
    by kernel_rfl, rfl, rfl, ?_, b!"[2026-11-18 01:02:03] i add: 2; -> nu", by decide +kernel, by decide +kernel, .inr (by decide +kernel)⟩
  intro t ht e
  rcases logText_ended ht with rfl | h
  · exact absurd e (by decide +kernel)
  · have := congrArg List.getLast? e
    rw [List.getLast?_append, h] at this
    exact absurd this (by decide +kernel)

end Knuckle.Props
