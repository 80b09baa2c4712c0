/-
C89: neither packets nor the times of arrival matter.
-/
import Verif.Spec.Arrival
import Verif.Props.Anonymous

namespace Knuckle.Props

open Spec

variable {pwd : Str} {c : Ctx}

/-- The server when the bytes `f i` have arrived at connection `i` in addition. -/
def ahead (f : Nat → Str) (s : Server) : Server :=
  { s with conns := s.conns.mapIdx fun i k => { k with inbuf := k.inbuf ++ f i } }

/-- The outcome when the bytes `f i` have arrived at connection `i` in addition. -/
def aheadO (f : Nat → Str) : Outcome Server → Outcome Server
  | .done s => .done (ahead f s)
  | .ub => .ub

theorem ahead_get (f : Nat → Str) (s : Server) (i : Nat) :
    (ahead f s).conns[i]? = s.conns[i]?.map fun k => { k with inbuf := k.inbuf ++ f i } := by
  simp [ahead, List.getElem?_mapIdx]

theorem ahead_set (f : Nat → Str) (s : Server) (ctx : Ctx) (i : Nat) (k : Conn) :
    ({ ahead f s with ctx := ctx, conns := (ahead f s).conns.set i { k with inbuf := k.inbuf ++ f i } } : Server) =
      ahead f { s with ctx := ctx, conns := s.conns.set i k } := by
  simp [ahead, List.mapIdx_set]

/-- The completion handler of the read, once the actor is known. -/
def withActor [StdSort] (s : Server) (i : Nat) (c : Conn) (line rest : Str) : Res Str → Outcome Server
  | .ok actor =>
    if c.sess.authed || isConnection actor then
      match execute s.pwd s.ctx (some c.sess) line with
      | .done (ctx', some sess', out) =>
        .done { s with
          ctx := ctx'
          conns := s.conns.set i
            { c with sess := sess', inbuf := rest, phase := if sess'.connected then .writing out else .dead } }
      | _ => .ub
    else
      .done { s with conns := s.conns.set i { c with inbuf := rest, phase := .writing Exc.notAuthenticated.text } }
  | _ => .ub

theorem handleLine_withActor [StdSort] (s : Server) (i : Nat) (k : Conn) (line rest : Str) :
    handleLine s i k line rest = withActor s i k line rest (match parse line with
      | .ok p => .ok p.actor
      | .err _ => .ok []
      | .ub => .ub) := by
  simp only [handleLine]
  cases parse line <;> rfl

theorem handleLine_ahead [StdSort] (f : Nat → Str) (s : Server) (i : Nat) (k : Conn) (line rest : Str) :
    handleLine (ahead f s) i { k with inbuf := k.inbuf ++ f i } line (rest ++ f i) = aheadO f (handleLine s i k line rest) := by
  rw [handleLine_withActor, handleLine_withActor]
  generalize (match parse line with | .ok p => .ok p.actor | .err _ => .ok [] | .ub => .ub : Res Str) = a
  cases a with
  | err e => rfl
  | ub => rfl
  | ok actor =>
    simp only [withActor]
    by_cases hg : (k.sess.authed || isConnection actor) = true
    · rw [if_pos hg, if_pos hg]
      change (match execute s.pwd s.ctx (some k.sess) line with | .done (ctx', some sess', out) => _ | _ => _) = _
      generalize execute s.pwd s.ctx (some k.sess) line = o
      match o with
      | .ub => rfl
      | .done (ctx', none, out) => rfl
      | .done (ctx', some sess', out) =>
        exact congrArg Outcome.done (ahead_set f s ctx' i
          { k with sess := sess', inbuf := rest, phase := if sess'.connected then .writing out else .dead })
    · rw [if_neg hg, if_neg hg]
      exact congrArg Outcome.done (ahead_set f s s.ctx i { k with inbuf := rest, phase := .writing Exc.notAuthenticated.text })

theorem length_handleLine [StdSort] {s s' : Server} {i : Nat} {k : Conn} {line rest : Str} (h : handleLine s i k line rest = .done s') :
    s'.conns.length = s.conns.length := by
  rw [handleLine_withActor] at h
  revert h
  generalize (match parse line with | .ok p => .ok p.actor | .err _ => .ok [] | .ub => .ub : Res Str) = a
  cases a with
  | err e => intro h; cases h
  | ub => intro h; cases h
  | ok actor =>
    simp only [withActor]
    split
    · generalize execute s.pwd s.ctx (some k.sess) line = o
      match o with
      | .ub => intro h; cases h
      | .done (ctx', none, out) => intro h; cases h
      | .done (ctx', some sess', out) => intro h; cases h; simp
    · intro h; cases h; simp

/-- A completion other than that of an accept goes the same way when more bytes have arrived. -/
theorem step_ahead [StdSort] {f : Nat → Str} {s : Server} {e : Event} {o : Outcome Server} (h : step s e = some o) (he : Completion e = true)
    (ha : e ≠ .accept) : step (ahead f s) e = some (aheadO f o) ∧ ∀ s', o = .done s' → s'.conns.length = s.conns.length := by
  cases e with
  | accept => exact absurd rfl ha
  | recv i b => cases he
  | acceptErr =>
    simp only [step] at h ⊢
    split at h
    · rename_i hs
      cases h
      refine ⟨?_, by rintro _ ⟨⟩; rfl⟩
      rw [if_pos (show (ahead f s).accepting = true from hs)]; rfl
    · cases h
  | read i =>
    simp only [step, ahead_get] at h ⊢
    cases hk : s.conns[i]? with
    | none => rw [hk] at h; cases h
    | some k =>
      rw [hk] at h
      dsimp only [Option.map_some] at h ⊢
      split at h
      · rename_i hp
        cases hl : splitLine k.inbuf with
        | none => rw [hl] at h; cases h
        | some q =>
          rw [hl] at h
          obtain ⟨line, rest⟩ := q
          dsimp only at h
          obtain ⟨e1, e2⟩ := splitLine_some hl
          cases h
          refine ⟨?_, fun s' hs => length_handleLine hs⟩
          rw [if_pos hp, show k.inbuf ++ f i = line ++ 10 :: (rest ++ f i) by rw [e1]; simp, splitLine_append _ _ e2]
          dsimp only
          rw [← handleLine_ahead, e1]
          simp
      · cases h
  | readErr i =>
    simp only [step, ahead_get] at h ⊢
    cases hk : s.conns[i]? with
    | none => rw [hk] at h; cases h
    | some k =>
      rw [hk] at h
      dsimp only [Option.map_some] at h ⊢
      split at h
      · rename_i hp
        cases h
        refine ⟨?_, by rintro _ ⟨⟩; simp⟩
        rw [if_pos hp]
        exact congrArg (fun x => some (Outcome.done x)) (ahead_set f s s.ctx i { k with phase := .dead })
      · cases h
  | wrote i =>
    simp only [step, ahead_get] at h ⊢
    cases hk : s.conns[i]? with
    | none => rw [hk] at h; cases h
    | some k =>
      rw [hk] at h
      obtain ⟨sess, inbuf, phase, out⟩ := k
      dsimp only [Option.map_some] at h ⊢
      cases phase with
      | reading => cases h
      | dead => cases h
      | writing r =>
        dsimp only at h ⊢
        split at h
        · rename_i hp
          cases h
          refine ⟨?_, by rintro _ ⟨⟩; simp⟩
          rw [if_pos hp]
          exact congrArg (fun x => some (Outcome.done x)) (ahead_set f s s.ctx i ⟨sess, inbuf, .reading, out ++ (r ++ [10])⟩)
        · cases h
  | wroteShort i =>
    simp only [step, ahead_get] at h ⊢
    cases hk : s.conns[i]? with
    | none => rw [hk] at h; cases h
    | some k =>
      rw [hk] at h
      obtain ⟨sess, inbuf, phase, out⟩ := k
      dsimp only [Option.map_some] at h ⊢
      cases phase with
      | reading => cases h
      | dead => cases h
      | writing r => cases h; exact ⟨rfl, by rintro _ ⟨⟩⟩
  | writeErr i =>
    simp only [step, ahead_get] at h ⊢
    cases hk : s.conns[i]? with
    | none => rw [hk] at h; cases h
    | some k =>
      rw [hk] at h
      obtain ⟨sess, inbuf, phase, out⟩ := k
      dsimp only [Option.map_some] at h ⊢
      cases phase with
      | reading => cases h
      | dead => cases h
      | writing r =>
        cases h
        refine ⟨?_, by rintro _ ⟨⟩; simp⟩
        exact congrArg (fun x => some (Outcome.done x)) (ahead_set f s s.ctx i ⟨sess, inbuf, .dead, out⟩)

theorem ahead_nil (s : Server) : ahead (fun _ => []) s = s := by
  obtain ⟨p, x, cs, a⟩ := s
  simp [ahead, List.mapIdx_eq_iff]

theorem run_atOnce [StdSort] {f : Nat → Str} {s : Server} {es : List Event} {o : Outcome Server} (h : run s es = some o)
    (hf : ∀ i, s.conns.length ≤ i → f i = received i es) :
    run (ahead (fun i => received i es) s) (atOnce f s.conns.length es) = some o := by
  induction es generalizing s with
  | nil =>
    simp only [run] at h
    cases h
    simp only [received, atOnce, run, ahead_nil]
  | cons e es ih =>
    simp only [run] at h
    cases hst : step s e with
    | none => rw [hst] at h; cases h
    | some o' =>
      rw [hst] at h
      by_cases hc : Completion e = true
      · have hrec : ∀ i, received i (e :: es) = received i es := by intro i; cases e <;> first | rfl | cases hc
        by_cases ha : e = .accept
        · subst ha
          simp only [step] at hst
          split at hst
          · rename_i hacc
            cases hst
            dsimp only at h
            have := ih h (by intro i hi; simp at hi; rw [hf i (by omega), hrec])
            have hacc' : (ahead (fun i => received i (.accept :: es)) s).accepting = true := hacc
            simp only [atOnce, run, step, if_pos hacc']
            rw [show ((ahead (fun i => received i (.accept :: es)) s).conns ++ [Conn.init (ahead (fun i => received i (.accept :: es)) s).pwd])[s.conns.length]? =
              some (Conn.init s.pwd) by simp [ahead]]
            dsimp only
            rw [if_neg (by simp [Conn.init])]
            dsimp only
            simp only [List.length_append, List.length_cons, List.length_nil, Nat.zero_add] at this
            rw [← this]
            congr 1
            simp only [ahead, List.mapIdx_append, hrec]
            congr 1
            rw [hf _ (Nat.le_refl _), hrec]
            simp [Conn.init]
          · cases hst
        · obtain ⟨h1, h2⟩ := step_ahead (f := fun i => received i es) hst hc ha
          have e0 : atOnce f s.conns.length (e :: es) = e :: atOnce f s.conns.length es := by
            cases e <;> first | rfl | exact absurd rfl ha | cases hc
          rw [e0]
          simp only [run, hrec]
          rw [h1]
          match o' with
          | .ub => cases h; rfl
          | .done s' =>
            dsimp only [aheadO] at h ⊢
            rw [← h2 s' rfl]
            exact ih h (fun i hi => by rw [h2 s' rfl] at hi; rw [hf i hi, hrec])
      · cases e with
        | recv i b =>
          simp only [step] at hst
          cases hk : s.conns[i]? with
          | none => rw [hk] at hst; cases hst
          | some k =>
            rw [hk] at hst
            dsimp only at hst
            split at hst
            · cases hst
            · cases hst
              dsimp only at h
              have hi : i < s.conns.length := by
                by_contra hh
                rw [List.getElem?_eq_none (by omega)] at hk; cases hk
              have := ih h (by
                intro j hj
                simp only [List.length_set] at hj
                rw [hf j hj]; simp only [received]; rw [if_neg (by omega)])
              simp only [List.length_set] at this
              simp only [atOnce]
              rw [← this]
              congr 1
              simp only [ahead]
              congr 1
              apply List.ext_getElem?
              intro j
              simp only [List.getElem?_mapIdx, List.getElem?_set, received]
              by_cases hij : i = j
              · subst hij
                have hk' : s.conns[i] = k := by simpa [List.getElem?_eq_getElem hi] using hk
                simp [hi, hk']
              · simp [hij]
        | _ => exact absurd rfl hc

theorem atOnce_completions (f : Nat → Str) (n : Nat) (es : List Event) : atOnce f n (completions es) = atOnce f n es := by
  induction es generalizing n with
  | nil => rfl
  | cons e es ih =>
    cases e <;> simp only [completions, List.filter_cons, Completion, if_true, Bool.false_eq_true, if_false, atOnce]
    all_goals first | rw [← ih]; rfl | exact ih _

/-- C89: whatever happens when the bytes of clients arrive in pieces, at whatever times, happens as well, with the same completions
of accepts, reads and writes in the same order, if all bytes of each client arrive at once when it is accepted. -/
theorem C89_at_once [StdSort] {es : List Event} {o : Outcome Server} (h : run (Server.init pwd c) es = some o) :
    run (Server.init pwd c) (atOnce (fun i => received i es) 0 es) = some o :=
  run_atOnce (s := Server.init pwd c) h (fun _ _ => rfl)

/-- C89: two histories with the same completions in the same order, in which every client sends the same bytes, end in the same
state, however the bytes were split and whenever they arrived. -/
theorem C89_arrival [StdSort] {es1 es2 : List Event} {o1 o2 : Outcome Server} (h1 : run (Server.init pwd c) es1 = some o1)
    (h2 : run (Server.init pwd c) es2 = some o2) (hc : completions es1 = completions es2)
    (hr : ∀ i, received i es1 = received i es2) : o1 = o2 := by
  have e1 := C89_at_once h1
  have e2 := C89_at_once h2
  rw [← atOnce_completions] at e1 e2
  rw [hc, funext hr, e2] at e1
  exact (Option.some.inj e1).symm

theorem only_requests {es : List Event} {s : Server} {log : List Request} {i : Nat} [StdSort] (h : Explains pwd c es s log)
    (ho : ∀ j, j ≠ i → received j es = []) : requestsOf i log = log := by
  apply List.filter_eq_self.2
  intro q hq
  by_contra hne
  have hne : q.conn ≠ i := by simpa using hne
  have hlt := h.known q hq
  have hin := h.input q.conn _ (List.getElem?_eq_getElem hlt)
  rw [ho _ hne] at hin
  obtain ⟨a, b, e⟩ : ∃ a b, requestsOf q.conn log = a ++ q :: b := List.append_of_mem (List.mem_filter.2 ⟨hq, by simp⟩)
  rw [e] at hin
  simp [wire] at hin

theorem prefix_requests [StdSort] {c1 c2 : Ctx} {l1 l2 : List Request} {i : Nat} (h1 : Serial pwd c l1 c1) (h2 : Serial pwd c l2 c2)
    (e1 : requestsOf i l1 = l1) (e2 : requestsOf i l2 = l2) (h : l1.map Request.line <+: l2.map Request.line) : l1 <+: l2 := by
  have e : l2.take l1.length ++ l2.drop l1.length = l2 := List.take_append_drop _ _
  rw [← e] at h2
  obtain ⟨d, hd⟩ := serial_prefix h2
  have hl : lines l1 = lines (l2.take l1.length) := by
    have hm : (l2.take l1.length).map Request.line = l1.map Request.line := by
      rw [List.map_take]
      obtain ⟨t, ht⟩ := h
      rw [← ht]
      rw [List.take_append_of_le_length (by simp)]
      rw [List.take_of_length_le (by simp)]
    have all : ∀ l : List Request, (∀ q ∈ l, q.conn = i) → lines l = (l.map Request.line).map fun x => (i, x) := by
      intro l hl
      simp only [lines, List.map_map]
      apply List.map_congr_left
      intro q hq
      simp [hl q hq]
    have c1 : ∀ q ∈ l1, q.conn = i := by
      intro q hq; rw [← e1] at hq; simpa using (List.mem_filter.1 hq).2
    have c2 : ∀ q ∈ l2.take l1.length, q.conn = i := by
      intro q hq
      have := List.mem_of_mem_take hq
      rw [← e2] at this; simpa using (List.mem_filter.1 this).2
    rw [all _ c1, all _ c2, hm]
  rw [(serial_det h1 hd hl).1]
  exact List.take_prefix _ _

theorem written_take {es : List Event} {log : List Request} {i : Nat} {k : Conn} {rs : List Str} (h : Written es log i k rs) :
    ∃ n, k.out = wire (rs.take n) := by
  have but : AllButLast k.out rs → ∃ n, k.out = wire (rs.take n) := by
    rintro ⟨l, r, e, h⟩
    exact ⟨l.length, by rw [e, List.take_left]; exact h⟩
  unfold Written at h
  split at h
  · exact ⟨rs.length, by rw [List.take_length]; exact h⟩
  · obtain ⟨l, h1, h2⟩ := h
    exact but ⟨l, _, h1, h2⟩
  · by_cases hd : Closed log i ∨ .writeErr i ∈ es
    · exact but (h.1 hd)
    · exact ⟨rs.length, by rw [List.take_length]; exact h.2 hd⟩

/-- C89: a client that is alone receives, as far as replies have been written, the same bytes whatever the schedule. -/
theorem C89_lone_client [StdSort] {es1 es2 : List Event} {s1 s2 : Server} {i : Nat} {k1 k2 : Conn} (hc : Reachable c)
    (h1 : run (Server.init pwd c) es1 = some (.done s1)) (h2 : run (Server.init pwd c) es2 = some (.done s2))
    (hk1 : s1.conns[i]? = some k1) (hk2 : s2.conns[i]? = some k2) (a1 : ∀ j, j ≠ i → received j es1 = [])
    (a2 : ∀ j, j ≠ i → received j es2 = []) (hr : received i es1 <+: received i es2) : k1.out <+: k2.out ∨ k2.out <+: k1.out := by
  obtain ⟨l1, x1⟩ := C44_serialized hc h1
  obtain ⟨l2, x2⟩ := C44_serialized hc h2
  have e1 := only_requests x1 a1
  have e2 := only_requests x2 a2
  obtain ⟨n1, o1⟩ := written_take (x1.output i k1 hk1)
  obtain ⟨n2, o2⟩ := written_take (x2.output i k2 hk2)
  rw [x1.input i k1 hk1, x2.input i k2 hk2] at hr
  rw [e1] at o1 hr
  rw [e2] at o2 hr
  rw [o1, o2]
  rcases lines_prefix (by simpa using x1.oneLine) (by simpa using x2.oneLine) hr with h | h
  · rcases take_comparable ((prefix_requests x1.serial x2.serial e1 e2 h).map Request.reply) n1 n2 with h | h
    · exact .inl (wire_prefix h)
    · exact .inr (wire_prefix h)
  · rcases take_comparable ((prefix_requests x2.serial x1.serial e2 e1 h).map Request.reply) n2 n1 with h | h
    · exact .inr (wire_prefix h)
    · exact .inl (wire_prefix h)

/-- C89: when all its lines have been answered, a client that is alone has received the same bytes and the server is left with the
same data (even the same log), whatever the schedule. -/
theorem C89_lone_client_answered [StdSort] {es1 es2 : List Event} {s1 s2 : Server} {i : Nat} {k1 k2 : Conn} (hc : Reachable c)
    (h1 : run (Server.init pwd c) es1 = some (.done s1)) (h2 : run (Server.init pwd c) es2 = some (.done s2))
    (hk1 : s1.conns[i]? = some k1) (hk2 : s2.conns[i]? = some k2) (a1 : ∀ j, j ≠ i → received j es1 = [])
    (a2 : ∀ j, j ≠ i → received j es2 = []) (hr : received i es1 = received i es2) (hi1 : Idle k1) (hi2 : Idle k2) :
    k1 = k2 ∧ s1.ctx = s2.ctx := by
  obtain ⟨l1, x1⟩ := C44_serialized hc h1
  obtain ⟨l2, x2⟩ := C44_serialized hc h2
  have e1 := only_requests x1 a1
  have e2 := only_requests x2 a2
  rw [x1.input i k1 hk1, x2.input i k2 hk2, e1, e2] at hr
  obtain ⟨hl, hb⟩ := wire_inj (by simpa using x1.oneLine) (by simpa using x2.oneLine) hi1.2 hi2.2 hr
  have hp := prefix_requests x1.serial x2.serial e1 e2 (hl ▸ List.prefix_refl _)
  have he : l1 = l2 := hp.eq_of_length (by simpa using congrArg List.length hl)
  subst he
  have s1' := x1.session i k1 hk1
  have s2' := x2.session i k2 hk2
  have w1 := x1.output i k1 hk1
  have w2 := x2.output i k2 hk2
  obtain ⟨⟨p1, q1⟩, b1, f1, o1⟩ := k1
  obtain ⟨⟨p2, q2⟩, b2, f2, o2⟩ := k2
  obtain ⟨rfl, _⟩ := hi1
  obtain ⟨rfl, _⟩ := hi2
  simp only [Written] at w1 w2
  simp only [SessionAfter] at s1' s2'
  have eq1 : q1 = q2 := by rw [Bool.eq_iff_iff, s1'.1, s2'.1]
  have eq2 : p1 = p2 := by rw [Bool.eq_iff_iff, s1'.2, s2'.2]
  exact ⟨by rw [eq1, eq2, w1, w2, show b1 = b2 from hb], (serial_det x1.serial x2.serial rfl).2⟩

/-! ### Examples -/

/-- The demonstration with two clients, with the bytes of each arriving at once: the same end. -/
def promptEvents : List Event := [.accept, .recv 0 b!"i get;\nConnection authenticateWithPassword: \"pw\";\ni get;\nhalf",
    .accept, .recv 1 b!"Connection authenticateWithPassword: \"pw\";\nInteger create: i withValue: 42;\n", .read 1, .wrote 1, .read 1,
    .read 0, .wrote 1, .wrote 0, .read 0, .wrote 0, .read 0]

example [StdSort] : run (Server.init b!"pw" fresh) promptEvents = some (.done demoServer) := by
  rw [show promptEvents = atOnce (fun i => received i demoEvents) 0 demoEvents by decide +kernel]
  exact C89_at_once demo_run

/-- A client alone: `Integer create: i withValue: 7;` and `i get;` in one packet, and byte by byte between the completions. -/
def alone1 : List Event := [.accept, .recv 0 b!"Integer create: i withValue: 7;\ni get;\n", .read 0, .wrote 0, .read 0, .wrote 0]

def alone2 : List Event := [.accept, .recv 0 b!"Integer create: ", .recv 0 b!"i withValue: 7;\n", .accept, .read 0, .recv 0 b!"i g", .wrote 0,
  .recv 0 b!"et;\n", .read 0, .wrote 0]

def aloneConn : Conn := ⟨⟨true, true⟩, [], .reading, b!"null\n7\n"⟩

theorem alone1_run [StdSort] : run (Server.init [] fresh) alone1 =
    some (.done ⟨[], { fresh with vars := [(b!"i", .integer 7)] }, [aloneConn], true⟩) := by kernel_rfl

theorem alone2_run [StdSort] : run (Server.init [] fresh) alone2 =
    some (.done ⟨[], { fresh with vars := [(b!"i", .integer 7)] }, [aloneConn, Conn.init []], true⟩) := by kernel_rfl

example [StdSort] : aloneConn = aloneConn ∧ ({ fresh with vars := [(b!"i", .integer 7)] } : Ctx) = { fresh with vars := [(b!"i", .integer 7)] } := by
  refine C89_lone_client_answered (i := 0) fresh_reachable alone1_run alone2_run rfl rfl ?_ ?_ (by decide +kernel) ⟨rfl, by decide⟩ ⟨rfl, by decide⟩
  · intro j hj; simp [alone1, received, Ne.symm hj]
  · intro j hj; simp [alone2, received, Ne.symm hj]

end Knuckle.Props
