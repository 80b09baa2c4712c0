/-
C62: the log file can be trusted.
-/
import Verif.Proofs.Log
import Verif.Props.Requests
import Verif.Props.Rebuild
import Verif.Props.Server

namespace Knuckle.Props

open Spec

section
variable [StdSort] {pwd : Str} {c c' d : Ctx} {s s' : Option Session} {text r : Str} {h h' : List (Str × Str)}

/-- The records of a history that are written to the log file. -/
theorem log_answered (hc : Reachable c) (hh : History c h c') (ho : c.fileOpen = true) :
    ∃ l, c'.fileLog = c.fileLog ++ l ∧ List.Forall₂ (fun q e => Trimmed q.1 e.1 ∧ e.2 = q.2 ∧ Answered e.1 e.2) h l := by
  induction hh with
  | nil => exact ⟨[], by simp, .nil⟩
  | cons he _ ih =>
    obtain ⟨t, ht, h1, h2, h3, h4⟩ := C38_one_record_per_request hc he
    obtain ⟨l, h5, h7⟩ := ih (.step hc he) (h1.trans ho)
    rw [ho] at h3
    exact ⟨(t, _) :: l, by rw [h5, h3]; simp, .cons ⟨ht, rfl, execute_answered (reachable_inv hc) he ht⟩ h7⟩

theorem log_good {prec : Int} {eps : Fl} {q : Bool} (he : eps.toF32 = eps) (hh : History (Ctx.init prec eps true q) h c)
    (hn : ∀ x ∈ h, c!"\n" ∉ x.1) : ∀ r ∈ c.fileLog, Answered r.1 r.2 ∧ (10 : Byte) ∉ r.1 ∧ (10 : Byte) ∉ r.2 := by
  obtain ⟨l, h1, h2⟩ := log_answered (.init prec eps true q he) hh rfl
  have h3 := C35_replies_are_single_lines he hh hn
  have h4 : c.fileLog = l := h1
  rw [h4]
  clear h1 h4 hh
  induction h2 with
  | nil => intro r hr; cases hr
  | @cons x y _ _ h5 _ ih =>
    intro r hr
    rcases List.mem_cons.1 hr with rfl | hr
    · obtain ⟨⟨w, w', e, _⟩, h6, h7⟩ := h5
      refine ⟨h7, fun hm => hn x (by simp) ?_, fun hm => h3 x (by simp) (h6 ▸ hm)⟩
      rw [e]; simp only [List.mem_append]; exact .inr (.inl hm)
    · exact ih (fun x hx => hn x (by simp [hx])) (fun x hx => h3 x (by simp [hx])) r hr

/-- C62: the log is not ambiguous: if the log files of two servers (with any settings, after any histories of requests without newlines, as
all requests that arrive over the network are) have the same text, whatever the times of the requests, then the same requests got the
same replies in the same order. -/
theorem C62_log_is_unambiguous {prec prec' : Int} {eps eps' : Fl} {q q' : Bool} (he : eps.toF32 = eps) (he' : eps'.toF32 = eps')
    (hh : History (Ctx.init prec eps true q) h c) (hh' : History (Ctx.init prec' eps' true q') h' c')
    (hn : ∀ x ∈ h, c!"\n" ∉ x.1) (hn' : ∀ x ∈ h', c!"\n" ∉ x.1)
    (hl : LogText c.fileLog text) (hl' : LogText c'.fileLog text) : c.fileLog = c'.fileLog :=
  log_unique (log_good he hh hn) (log_good he' hh' hn') hl hl'

omit [StdSort] in
/-- C62: every list of records has a log, so the hypothesis above can be met. -/
theorem logText_exists (l : List (Str × Str)) : ∃ text, LogText l text :=
  ⟨_, List.replicate l.length b!"[2026-11-18 01:02:03]", by simp, fun t ht => by
    rw [List.eq_of_mem_replicate ht]; exact ⟨b!"2026-11-18 01:02:03", by decide, by decide, by decide⟩, rfl⟩

/-- C62: the log is a journal: sending the logged requests again, except those to `Connection`, to a server with the same data, in one session
whatever it is and whatever the password, gives the logged replies and leads to the same data. -/
theorem C62_log_can_be_replayed (hc : Reachable c) (hh : History c h c') (ho : c.fileOpen = true) (hd : SameData c d) :
    ∃ l, c'.fileLog = c.fileLog ++ l ∧ ∀ l', Removed (fun q => ToConnection q.1) l l' → ∀ pwd s, ∃ d', Replay pwd s d l' d' ∧ SameData c' d' := by
  induction hh generalizing d with
  | nil => exact ⟨[], by simp, fun l' hl' pwd s => by cases hl'; exact ⟨d, .nil, hd⟩⟩
  | @cons pwd₁ c c₁ c₂ s₁ s₁' text r h he hh ih =>
    obtain ⟨t, ht, h1, h2, h3, h4⟩ := C38_one_record_per_request hc he
    rw [ho] at h3
    have hex := trimmed_sameEffect (pwd := pwd₁) (c := c) (s := s₁) ht
    rw [he] at hex
    cases hx : execute pwd₁ c s₁ t with
    | ub => rw [hx] at hex; exact hex.elim
    | done y =>
      obtain ⟨c₃, s₃, r₃⟩ := y
      rw [hx] at hex
      obtain ⟨g1, rfl, rfl⟩ := hex
      by_cases hC : ToConnection t
      · have hcc : SameData c c₁ := by
          cases s₁ with
          | none =>
            exfalso
            obtain ⟨n, l, hs⟩ := hC
            rw [execute_statement _ _ _ _ _ _ _ hs, executeParsed_connection _ _ _ _ (by simp [isConnection])] at hx
            cases hx
          | some s₁ =>
            have := toConnection_sameData hC hx
            exact ⟨g1.1.symm.trans this.1, g1.2.symm.trans this.2⟩
        obtain ⟨l, h5, h7⟩ := ih (d := d) (.step hc he) (h1.trans ho) (sameData_trans (sameData_symm hcc) hd)
        refine ⟨(t, r) :: l, by rw [h5, h3]; simp, fun l' hl' pwd s => ?_⟩
        cases hl' with
        | keep hk => exact absurd hC hk
        | drop _ hl' => exact h7 l' hl' pwd s
      · have hd1 := C51_logging_does_not_matter (pwd := pwd₁) (s := s₁) (text := t) hd
        rw [hx] at hd1
        cases hy : execute pwd₁ d s₁ t with
        | ub => rw [hy] at hd1; exact hd1.elim
        | done y =>
          obtain ⟨d₁, s₄, r₄⟩ := y
          rw [hy] at hd1
          obtain ⟨g2, rfl, rfl⟩ := hd1
          obtain ⟨l, h5, h7⟩ := ih (d := d₁) (.step hc he) (h1.trans ho) (sameData_trans g1 g2)
          refine ⟨(t, r) :: l, by rw [h5, h3]; simp, fun l' hl' pwd s => ?_⟩
          cases hl' with
          | drop hk => exact absurd hk hC
          | keep _ hl' =>
            obtain ⟨d', k1, k2⟩ := h7 _ hl' pwd s
            exact ⟨d', .cons (execute_anyone hC hy pwd s) k1, k2⟩

/-- C62: so the text of the log file determines the data: two servers that were started with the same settings and whose log files have the same
text (whatever sessions and passwords there were) have the same variables and settings. -/
theorem C62_log_determines_data {prec : Int} {eps : Fl} {q q' : Bool} (he : eps.toF32 = eps)
    (hh : History (Ctx.init prec eps true q) h c) (hh' : History (Ctx.init prec eps true q') h' c')
    (hn : ∀ x ∈ h, c!"\n" ∉ x.1) (hn' : ∀ x ∈ h', c!"\n" ∉ x.1)
    (hl : LogText c.fileLog text) (hl' : LogText c'.fileLog text) : SameData c c' := by
  have e := C62_log_is_unambiguous he he hh hh' hn hn' hl hl'
  obtain ⟨l, h1, h2⟩ := C62_log_can_be_replayed (d := Ctx.init prec eps true q) (.init _ _ _ _ he) hh rfl ⟨rfl, rfl⟩
  obtain ⟨l', h1', h2'⟩ := C62_log_can_be_replayed (d := Ctx.init prec eps true q) (.init _ _ _ _ he) hh' rfl ⟨rfl, rfl⟩
  have e1 : l = l' := by
    have k1 : c.fileLog = l := h1
    have k2 : c'.fileLog = l' := h1'
    rw [← k1, ← k2, e]
  subst e1
  obtain ⟨x, hx⟩ := removed_exists (fun q : Str × Str => ToConnection q.1) l
  obtain ⟨d, k1, k2⟩ := h2 x hx [] none
  obtain ⟨d', k1', k2'⟩ := h2' x hx [] none
  rw [replay_det k1 k1'] at k2
  exact sameData_trans k2 (sameData_symm k2')

/-- C62: the same over the network: two servers that were started with the same settings, with any passwords, and served any clients in any
interleaving, and whose log files have the same text, have the same variables and settings. -/
theorem C62_log_determines_data_on_the_wire {pwd' : Str} {prec : Int} {eps : Fl} {q q' : Bool} {es es' : List Event} {srv srv' : Server}
    (he : eps.toF32 = eps) (hr : run (Server.init pwd (Ctx.init prec eps true q)) es = some (.done srv))
    (hr' : run (Server.init pwd' (Ctx.init prec eps true q')) es' = some (.done srv'))
    (hl : LogText srv.ctx.fileLog text) (hl' : LogText srv'.ctx.fileLog text) : SameData srv.ctx srv'.ctx := by
  obtain ⟨log, h1⟩ := C44_serialized (.init _ _ _ _ he) hr
  obtain ⟨log', h1'⟩ := C44_serialized (.init _ _ _ _ he) hr'
  obtain ⟨x, h2, h3, _⟩ := serial_history h1.serial
  obtain ⟨x', h2', h3', _⟩ := serial_history h1'.serial
  refine C62_log_determines_data he h2 h2' ?_ ?_ hl hl'
  · intro p hp
    obtain ⟨q, hq, rfl⟩ := h3 p hp
    exact h1.oneLine q hq
  · intro p hp
    obtain ⟨q, hq, rfl⟩ := h3' p hp
    exact h1'.oneLine q hq

/-- C62: the password of the server is in the log file, in clear, if a session is authenticated. -/
theorem C62_password_is_logged {es : List Event} {srv : Server} {prec : Int} {eps : Fl} {q : Bool} (he : eps.toF32 = eps)
    (hr : run (Server.init pwd (Ctx.init prec eps true q)) es = some (.done srv)) (hp : pwd ≠ [])
    (ha : ∃ k ∈ srv.conns, k.sess.authed = true) : ∃ x ∈ srv.ctx.fileLog, Presents pwd x.1 := by
  obtain ⟨log, h1⟩ := C44_serialized (.init _ _ _ _ he) hr
  obtain ⟨k, hk, hk'⟩ := ha
  obtain ⟨i, hi⟩ := List.mem_iff_getElem?.1 hk
  obtain ⟨q, hq, _, a, hs, hw⟩ := (((h1.session i k hi).1).1 hk').resolve_left hp
  obtain ⟨x, h2, hx, h4⟩ := serial_history h1.serial
  have h5 := h4 q hq ⟨_, _, hs⟩
  obtain ⟨l, h6, h7⟩ := log_answered (.init _ _ _ _ he) h2 rfl
  have h8 : srv.ctx.fileLog = l := h6
  rw [h8]
  obtain ⟨e, he, ht⟩ : ∃ e ∈ l, Trimmed q.line e.1 := by
    clear h6 h8 h2 h4 hx
    induction h7 with
    | nil => cases h5
    | @cons p e _ _ hpe _ ih =>
      rcases List.mem_cons.1 h5 with h5 | h5
      · exact ⟨e, by simp, by rw [← h5] at hpe; exact hpe.1⟩
      · obtain ⟨e, he, ht⟩ := ih h5
        exact ⟨e, by simp [he], ht⟩
  exact ⟨e, he, a, (trimmed_statement ht).1 hs, hw⟩

end

/-- A server with a log file, after requests with a string that contains the separator ` -> ` and an error. -/
example [StdSort] : History (Ctx.init 3 (.fin false 0) true false)
    [(b!" String create: s withValue: \" -> \"; ", b!"null"), (b!"s get;", b!"\" -> \""), (b!"s get; -> \" -> \"", b!"SyntaxError: invalid statement.")]
    { Ctx.init 3 (.fin false 0) true false with vars := [(b!"s", .string b!" -> ")], fileLog := [
      (b!"String create: s withValue: \" -> \";", b!"null"), (b!"s get;", b!"\" -> \""),
      (b!"s get; -> \" -> \"", b!"SyntaxError: invalid statement.")] } :=
  .cons (pwd := []) (s := none) (s' := none) (c' := { Ctx.init 3 (.fin false 0) true false with vars := [(b!"s", .string b!" -> ")], fileLog := [
      (b!"String create: s withValue: \" -> \";", b!"null")] }) (by kernel_rfl)
    (.cons (pwd := []) (s := none) (s' := none) (c' := { Ctx.init 3 (.fin false 0) true false with vars := [(b!"s", .string b!" -> ")], fileLog := [
      (b!"String create: s withValue: \" -> \";", b!"null"), (b!"s get;", b!"\" -> \"")] }) (by kernel_rfl)
    (.cons (pwd := []) (s := none) (s' := none) (by kernel_rfl) .nil))

/-- A server with a password, a log file and an authenticated client. -/
example [StdSort] : ∃ srv, run (Server.init b!"pw" (Ctx.init 3 (.fin false 0) true false))
    [.accept, .recv 0 b!"Connection authenticateWithPassword: \"pw\";\n", .read 0] = some (.done srv) ∧
    (∃ k ∈ srv.conns, k.sess.authed = true) ∧
    LogText srv.ctx.fileLog b!"[2026-11-18 01:02:03] Connection authenticateWithPassword: \"pw\"; -> null\n" := by
  refine ⟨⟨b!"pw", { Ctx.init 3 (.fin false 0) true false with fileLog := [(b!"Connection authenticateWithPassword: \"pw\";", b!"null")] },
    [⟨⟨true, true⟩, [], .writing b!"null", []⟩], true⟩, by kernel_rfl, ⟨_, List.mem_cons_self .., rfl⟩, [b!"[2026-11-18 01:02:03]"], rfl, ?_, by decide +kernel⟩
  intro t ht
  rw [List.mem_singleton.1 ht]
  exact ⟨b!"2026-11-18 01:02:03", by decide, by decide, by decide⟩

end Knuckle.Props
