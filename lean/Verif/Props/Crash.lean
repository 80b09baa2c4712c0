/-
C74: what a client was told is in the log, and survives the death of the process.
-/
import Verif.Spec.Crash
import Verif.Props.Log
import Verif.Props.Undefined

namespace Knuckle.Props

open Spec

section
variable [StdSort] {pwd : Str} {c c' : Ctx} {s : Server} {es : List Event}

/-- The record was made of this request. -/
def RecordOf (q : Request) (e : Str × Str) : Prop := Trimmed q.line e.1 ∧ e.2 = q.reply

/-- The request was executed, not just answered "not authenticated". -/
def executed (q : Request) : Bool := decide (q.reply ≠ b!"AuthenticationError: not authenticated.")

theorem serial_open {log : List Request} (hc : Reachable c) (h : Serial pwd c log c') : c'.fileOpen = c.fileOpen := by
  induction h with
  | nil => rfl
  | executed h1 _ _ _ he ih =>
    obtain ⟨_, _, h2, _⟩ := C38_one_record_per_request (serial_reachable hc h1) he
    exact h2.trans ih
  | ignored _ _ _ _ ih => exact ih

theorem serial_records {log : List Request} (hc : Reachable c) (ho : c.fileOpen = true) (h : Serial pwd c log c') :
    ∃ l, c'.fileLog = c.fileLog ++ l ∧ List.Forall₂ RecordOf (log.filter executed) l := by
  induction h with
  | nil => exact ⟨[], by simp, .nil⟩
  | @executed log _ _ i line reply _ _ h1 _ _ _ he ih =>
    obtain ⟨l, h2, h3⟩ := ih
    obtain ⟨t, ht, _, _, h4, _⟩ := C38_one_record_per_request (serial_reachable hc h1) he
    have hr := (C49_other_errors (serial_reachable hc h1) he).1
    rw [serial_open hc h1, ho] at h4
    refine ⟨l ++ [(t, reply)], by rw [h4, h2]; simp, ?_⟩
    rw [List.filter_append]
    refine List.rel_append h3 ?_
    have : List.filter executed [(⟨i, line, reply⟩ : Request)] = [⟨i, line, reply⟩] := by simp [executed, hr]
    rw [this]
    exact .cons ⟨ht, rfl⟩ .nil
  | @ignored log _ i line _ _ _ _ ih =>
    obtain ⟨l, h2, h3⟩ := ih
    refine ⟨l, h2, ?_⟩
    rw [List.filter_append]
    simpa [executed] using h3

/-- C74: the log comes first: whenever the server is between two events, every request that was executed, in particular every one whose
reply has been written or is about to be written to a client (`Explains`), is in the log file with this reply, in the order of
execution, and nothing else is.  (Only the requests refused because the client was not authenticated are not logged.) -/
theorem C74_logged_before_answered (hc : Reachable c) (ho : c.fileOpen = true) (hl : c.fileLog = [])
    (hr : run (Server.init pwd c) es = some (.done s)) :
    ∃ log, Explains pwd c es s log ∧ List.Forall₂ RecordOf (log.filter executed) s.ctx.fileLog := by
  obtain ⟨log, h⟩ := C44_serialized hc hr
  obtain ⟨l, h1, h2⟩ := serial_records hc ho h.serial
  rw [hl, List.nil_append] at h1
  exact ⟨log, h, h1 ▸ h2⟩

/-- C74: each event writes at most one line to the log. -/
theorem C74_one_line_at_a_time {s' : Server} {e : Event} (hc : Reachable s.ctx) (hst : step s e = some (.done s')) :
    s'.ctx.fileLog = s.ctx.fileLog ∨ ∃ r, s'.ctx.fileLog = s.ctx.fileLog ++ [r] := by
  have line : ∀ i k l rest, handleLine s i k l rest = .done s' →
      s'.ctx.fileLog = s.ctx.fileLog ∨ ∃ r, s'.ctx.fileLog = s.ctx.fileLog ++ [r] := by
    intro i k l rest h
    rcases handleLine_cases s i k l rest _ h (reachable_inv hc) with ⟨_, _, h⟩ | ⟨_, _, h⟩ | ⟨_, c', t, r, he, h⟩
    · cases h; exact .inl rfl
    · cases h
    · cases h
      obtain ⟨t, _, _, _, h4, _⟩ := C38_one_record_per_request hc he
      rw [h4]
      cases s.ctx.fileOpen
      · exact .inl (by simp)
      · exact .inr ⟨_, rfl⟩
  cases e with
  | read i =>
    simp only [step] at hst
    split at hst
    · split at hst
      · split at hst
        · exact line _ _ _ _ (Option.some.inj hst)
        · cases hst
      · cases hst
    · cases hst
  | _ =>
    left
    simp only [step] at hst
    repeat' split at hst
    all_goals first | (cases hst; rfl) | cases hst

omit [StdSort] in
theorem logLines_snoc (a : List Str) (b : List (Str × Str)) (h : a.length = b.length) (x : Str) (y : Str × Str) :
    logLines (a ++ [x]) (b ++ [y]) = logLines a b ++ logLine x y := by
  unfold logLines
  rw [List.zipWith_append h]
  simp

omit [StdSort] in
theorem logLine_end (x : Str) (y : Str × Str) : ∃ z, logLine x y = z ++ [c!"\n"] ∧ (c!"\n" ∉ x → c!"\n" ∉ y.1 → c!"\n" ∉ y.2 → c!"\n" ∉ z) := by
  refine ⟨x ++ (b!" " ++ (y.1 ++ (b!" -> " ++ y.2))), by simp [logLine], fun h1 h2 h3 => ?_⟩
  simp [h1, h2, h3]

omit [StdSort] in
theorem logText_ended {l : List (Str × Str)} {t : Str} (h : LogText l t) : t = [] ∨ t.getLast? = some c!"\n" := by
  obtain ⟨a, h1, _, rfl⟩ := h
  rcases List.eq_nil_or_concat l with rfl | ⟨l', y, rfl⟩
  · left; unfold logLines; rw [List.zipWith_nil_right]; rfl
  · right
    rcases List.eq_nil_or_concat a with rfl | ⟨a', x, rfl⟩
    · simp at h1
    · rw [List.concat_eq_append, List.concat_eq_append, logLines_snoc _ _ (by simpa using h1)]
      obtain ⟨z, e, _⟩ := logLine_end x y
      rw [e, ← List.append_assoc, List.getLast?_concat]

omit [StdSort] in
theorem logText_snoc {l : List (Str × Str)} {t x : Str} {y : Str × Str} (h : LogText l t) (hx : Stamp x) : LogText (l ++ [y]) (t ++ logLine x y) := by
  obtain ⟨a, h1, h2, rfl⟩ := h
  refine ⟨a ++ [x], by simp [h1], ?_, (logLines_snoc _ _ h1 _ _).symm⟩
  intro b hb
  rcases List.mem_append.1 hb with hb | hb
  · exact h2 b hb
  · rw [List.mem_singleton.1 hb]; exact hx

omit [StdSort] in
theorem complete_unique {a b u v : Str} (h : u ++ a = v ++ b) (ha : c!"\n" ∉ a) (hb : c!"\n" ∉ b) (hu : u = [] ∨ u.getLast? = some c!"\n")
    (hv : v = [] ∨ v.getLast? = some c!"\n") : u = v := by
  have one : ∀ {u v w : Str}, v = u ++ w → c!"\n" ∉ w → (v = [] ∨ v.getLast? = some c!"\n") → u = v := by
    intro u v w e hw hv
    rcases List.eq_nil_or_concat w with rfl | ⟨w', x, rfl⟩
    · simpa using e.symm
    · rw [List.concat_eq_append] at e hw
      rcases hv with rfl | hv
      · simp at e
      · rw [e, ← List.append_assoc, List.getLast?_concat] at hv
        cases hv
        simp at hw
  rcases List.append_eq_append_iff.1 h with ⟨w, e1, e2⟩ | ⟨w, e1, e2⟩
  · refine one e1 (fun hm => ha (by rw [e2]; exact List.mem_append_left _ hm)) hv
  · exact (one e1 (fun hm => hb (by rw [e2]; exact List.mem_append_left _ hm)) hu).symm

omit [StdSort] in
theorem stamp_line {x : Str} (h : Stamp x) : c!"\n" ∉ x := by
  obtain ⟨b, rfl, _, hb⟩ := h
  simp [hb]

/-- The records of a server have no newlines. -/
theorem run_log_good {prec : Int} {eps : Fl} {q : Bool} (he : eps.toF32 = eps)
    (hr : run (Server.init pwd (Ctx.init prec eps true q)) es = some (.done s)) :
    ∀ r ∈ s.ctx.fileLog, Answered r.1 r.2 ∧ (10 : Byte) ∉ r.1 ∧ (10 : Byte) ∉ r.2 := by
  obtain ⟨log, h1⟩ := C44_serialized (.init _ _ _ _ he) hr
  obtain ⟨x, h2, h3, _⟩ := serial_history h1.serial
  refine log_good he h2 ?_
  intro p hp
  obtain ⟨q, hq, rfl⟩ := h3 p hp
  exact h1.oneLine q hq

/-- C74: killing the process loses nothing that was answered: whenever it is killed, between events or in the middle of writing a line of
the log, the complete lines of the log file are the whole log of a state in which the server was when it was killed, or in which the event it
was handling would have brought it; so they contain every request that was answered (`C74_logged_before_answered`), in order, and no
request in part.  Sending their requests again, except those to `Connection`, to a new server with the same settings gives the
data of that state. -/
theorem C74_crash_recovery {prec : Int} {eps : Fl} {q : Bool} {file u : Str} (he : eps.toF32 = eps)
    (hr : run (Server.init pwd (Ctx.init prec eps true q)) es = some (.done s)) (hf : FileAfterCrash s file) (hu : CompleteLines file u) :
    ∃ es' s', (es' = es ∨ ∃ e, es' = es ++ [e]) ∧ run (Server.init pwd (Ctx.init prec eps true q)) es' = some (.done s') ∧
      s.ctx.fileLog <+: s'.ctx.fileLog ∧ LogText s'.ctx.fileLog u ∧
      ∀ l, Removed (fun r => ToConnection r.1) s'.ctx.fileLog l → ∀ pwd' sess d, SameData (Ctx.init prec eps true q) d →
        ∃ d', Replay pwd' sess d l d' ∧ SameData s'.ctx d' := by
  have replay : ∀ {es' s'}, run (Server.init pwd (Ctx.init prec eps true q)) es' = some (.done s') →
      ∀ l, Removed (fun r => ToConnection r.1) s'.ctx.fileLog l → ∀ pwd' sess d, SameData (Ctx.init prec eps true q) d →
        ∃ d', Replay pwd' sess d l d' ∧ SameData s'.ctx d' := by
    intro es' s' hr l hl pwd' sess d hd
    obtain ⟨log, h1⟩ := C44_serialized (.init _ _ _ _ he) hr
    obtain ⟨x, h2, _, _⟩ := serial_history h1.serial
    obtain ⟨l', h3, h4⟩ := C62_log_can_be_replayed (.init _ _ _ _ he) h2 rfl hd
    have h5 : s'.ctx.fileLog = l' := h3
    rw [h5] at hl
    exact h4 l hl pwd' sess
  obtain ⟨rest, e, hrest, hend⟩ := hu
  cases hf with
  | between ht =>
    have := complete_unique (b := []) (v := file) (by simpa using e.symm) hrest (by simp) hend (logText_ended ht)
    subst this
    exact ⟨es, s, .inl rfl, hr, List.prefix_rfl, ht, replay hr⟩
  | @during t ev s' stamp r p ht hst hl hs hp =>
    have hr' : run (Server.init pwd (Ctx.init prec eps true q)) (es ++ [ev]) = some (.done s') := by
      rw [run_append, hr]; exact (run_single s ev).trans hst
    obtain ⟨p', hp⟩ := hp
    have hg := run_log_good he hr' r (by rw [hl]; simp)
    obtain ⟨z, hz, hz'⟩ := logLine_end stamp r
    have hz' := hz' (stamp_line hs) hg.2.1 hg.2.2
    rcases List.eq_nil_or_concat p' with rfl | ⟨w, x, rfl⟩
    · rw [List.append_nil] at hp
      subst hp
      have ht' := logText_snoc (y := r) ht hs
      have := complete_unique (b := []) (v := t ++ logLine stamp r) (by simpa using e.symm) hrest (by simp) hend (logText_ended ht')
      rw [← hl] at ht'
      exact ⟨_, s', .inr ⟨ev, rfl⟩, hr', ⟨[r], hl.symm⟩, this ▸ ht', replay hr'⟩
    · rw [List.concat_eq_append, ← List.append_assoc, hz] at hp
      have hpz := (List.append_inj' hp rfl).1
      have hpn : c!"\n" ∉ p := fun hm => hz' (hpz ▸ List.mem_append_left _ hm)
      have := complete_unique e.symm hrest hpn hend (logText_ended ht)
      subst this
      exact ⟨es, s, .inl rfl, hr, List.prefix_rfl, ht, replay hr⟩

end

/-- A server without password and with a log file, killed while the second line of its log was being written: the first line is complete. -/
example [StdSort] : ∃ s, run (Server.init [] (Ctx.init 3 (.fin false 0) true false))
      [.accept, .recv 0 b!"Integer create: i withValue: 1;\ni add: 2;\n", .read 0, .wrote 0] = some (.done s) ∧
    FileAfterCrash s b!"[2026-11-18 01:02:03] Integer create: i withValue: 1; -> null\n[2026-11-18 01:02:04] i add: 2; -> nu" ∧
    CompleteLines b!"[2026-11-18 01:02:03] Integer create: i withValue: 1; -> null\n[2026-11-18 01:02:04] i add: 2; -> nu"
      b!"[2026-11-18 01:02:03] Integer create: i withValue: 1; -> null\n" := by
  have stamp : ∀ b : Str, c!"]" ∉ b → c!"\n" ∉ b → Stamp (c!"[" :: (b ++ b!"]")) := fun b h1 h2 => ⟨b, rfl, h1, h2⟩
  refine ⟨⟨[], { Ctx.init 3 (.fin false 0) true false with
      vars := [(b!"i", .integer 1)], fileLog := [(b!"Integer create: i withValue: 1;", b!"null")] },
    [⟨⟨true, true⟩, b!"i add: 2;\n", .reading, b!"null\n"⟩], true⟩, by kernel_rfl, ?_, ?_⟩
  · refine FileAfterCrash.during (t := b!"[2026-11-18 01:02:03] Integer create: i withValue: 1; -> null\n") (e := .read 0)
      (s' := ⟨[], { Ctx.init 3 (.fin false 0) true false with vars := [(b!"i", .integer 3)], fileLog := [
          (b!"Integer create: i withValue: 1;", b!"null"), (b!"i add: 2;", b!"null")] },
        [⟨⟨true, true⟩, [], .writing b!"null", b!"null\n"⟩], true⟩)
      (stamp := b!"[2026-11-18 01:02:04]") (r := (b!"i add: 2;", b!"null")) ?_ (by kernel_rfl) (by kernel_rfl)
      (stamp b!"2026-11-18 01:02:04" (by decide) (by decide)) ?_
    · refine ⟨[b!"[2026-11-18 01:02:03]"], rfl, ?_, by decide +kernel⟩
      intro t ht
      rw [List.mem_singleton.1 ht]
      exact stamp b!"2026-11-18 01:02:03" (by decide) (by decide)
    · exact ⟨b!"ll\n", by decide +kernel⟩
  · exact ⟨b!"[2026-11-18 01:02:04] i add: 2; -> nu", by decide +kernel, by decide +kernel, .inr (by decide +kernel)⟩

end Knuckle.Props
