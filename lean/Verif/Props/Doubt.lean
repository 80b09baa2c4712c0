/-
C95: what a client knows after its connection broke.
-/
import Verif.Props.Retry
import Verif.Props.Server
import Verif.Props.Isolation
import Verif.Props.Concurrency

namespace Knuckle.Props

open Spec

variable {pwd : Str} {c d cA cB : Ctx} {s : Server} {i j : Nat} {k : Conn} {line rest r r1 r2 : Str} {l m log : List Request} {es : List Event}

/-- C95: at most one request is in doubt.  If a connection has been given `n` complete replies, the first `n` lines it sent have been executed,
each once and in order, and at most one more; as long as the connection waits for input, no more. -/
theorem C95_at_most_one [StdSort] (hc : Reachable c) (h : run (Server.init pwd c) es = some (.done s)) (hk : s.conns[i]? = some k) :
    ∃ log n, Explains pwd c es s log ∧ k.out = wire (((requestsOf i log).take n).map Request.reply) ∧
      received i es = wire ((requestsOf i log).map Request.line) ++ k.inbuf ∧
      ((requestsOf i log).length = n ∨ (requestsOf i log).length = n + 1 ∧ k.phase ≠ .reading) := by
  obtain ⟨log, hl⟩ := C44_serialized hc h
  have ho := hl.output i k hk
  unfold Written at ho
  have all : k.out = wire ((requestsOf i log).map Request.reply) → ∃ n, k.out = wire (((requestsOf i log).take n).map Request.reply) ∧
      ((requestsOf i log).length = n ∨ (requestsOf i log).length = n + 1 ∧ k.phase ≠ .reading) := fun h =>
    ⟨_, by rw [List.take_length]; exact h, .inl rfl⟩
  have butLast : ∀ rs x, (requestsOf i log).map Request.reply = rs ++ [x] → k.out = wire rs → k.phase ≠ .reading →
      ∃ n, k.out = wire (((requestsOf i log).take n).map Request.reply) ∧
      ((requestsOf i log).length = n ∨ (requestsOf i log).length = n + 1 ∧ k.phase ≠ .reading) := by
    intro rs x h1 h2 h3
    have h4 := congrArg List.length h1
    rw [List.length_map, List.length_append] at h4
    refine ⟨rs.length, ?_, .inr ⟨by simpa using h4, h3⟩⟩
    rw [List.map_take, h1, List.take_left']
    · exact h2
    · rfl
  have : ∃ n, k.out = wire (((requestsOf i log).take n).map Request.reply) ∧
      ((requestsOf i log).length = n ∨ (requestsOf i log).length = n + 1 ∧ k.phase ≠ .reading) := by
    obtain hp | ⟨x, hp⟩ | hp : k.phase = .reading ∨ (∃ x, k.phase = .writing x) ∨ k.phase = .dead := by cases k.phase <;> simp
    · rw [hp] at ho; exact all ho
    · rw [hp] at ho
      obtain ⟨rs, h1, h2⟩ := ho
      exact butLast rs x h1 h2 (by rw [hp]; simp)
    · rw [hp] at ho
      by_cases hh : Closed log i ∨ .writeErr i ∈ es
      · obtain ⟨rs, x, h1, h2⟩ := ho.1 hh
        exact butLast rs x h1 h2 (by rw [hp]; simp)
      · exact all (ho.2 hh)
  obtain ⟨n, h1, h2⟩ := this
  exact ⟨log, n, hl, h1, hl.input i k hk, h2⟩

/-- C95: and one can be in doubt.  When an authenticated client has sent a line (whose execution is defined, and that does not close the
connection), the connection can break in two ways: before the line is executed, or after.  In both the client has been sent the same
bytes, and nobody else can see a difference at the connections; but the data are those before in one case and those after the request in the
other. -/
theorem C95_one_in_doubt [StdSort] {c' : Ctx} {t : Session} (hr : Reachable s.ctx) (hk : s.conns[i]? = some k) (hp : k.phase = .reading)
    (ha : k.sess.authed = true) (hc : k.sess.connected = true) (hb : k.inbuf = line ++ (10 : Byte) :: rest) (hn : (10 : Byte) ∉ line) (hcl : ¬ Closes line)
    (he : execute s.pwd s.ctx (some k.sess) line = .done (c', some t, r)) :
    ∃ sA sB kA kB, run s [.readErr i] = some (.done sA) ∧ run s [.read i, .writeErr i] = some (.done sB) ∧
      sA.conns[i]? = some kA ∧ sB.conns[i]? = some kB ∧ kA.out = k.out ∧ kB.out = k.out ∧ kA.phase = .dead ∧ kB.phase = .dead ∧
      (∀ j, j ≠ i → sA.conns[j]? = s.conns[j]? ∧ sB.conns[j]? = s.conns[j]?) ∧ sA.ctx = s.ctx ∧ sB.ctx = c' := by
  have hlt : i < s.conns.length := by
    by_contra hn
    rw [List.getElem?_eq_none (by omega)] at hk; cases hk
  have htc : t.connected = true := by
    obtain ⟨t', e, _, h2⟩ := execute_session (reachable_inv hr) he
    cases e
    exact h2.2 ⟨hc, hcl⟩
  have hA : step s (.readErr i) = some (.done { s with conns := s.conns.set i { k with phase := .dead } }) := by
    simp only [step, hk, hp, if_true]
  have hsp : splitLine k.inbuf = some (line, rest) := by rw [hb]; exact splitLine_append _ _ hn
  have hB : step s (.read i) = some (.done { s with
      ctx := c', conns := s.conns.set i { k with sess := t, inbuf := rest, phase := .writing r } }) := by
    simp only [step, hk, hp, if_true, hsp]
    rcases handleLine_cases s i k line rest _ rfl (reachable_inv hr) with ⟨h1, _, _⟩ | ⟨_, h2, _⟩ | ⟨_, c'', t', r', h2, h3⟩
    · exact absurd ha h1
    · rw [he] at h2; cases h2
    · rw [he] at h2
      cases h2
      rw [h3, htc]; rfl
  let kB : Conn := { k with sess := t, inbuf := rest, phase := .dead }
  refine ⟨{ s with conns := s.conns.set i { k with phase := .dead } }, { s with ctx := c', conns := (s.conns.set i { k with sess := t, inbuf := rest, phase := .writing r }).set i kB }, { k with phase := .dead }, kB,
    by simp only [run, hA], ?_, List.getElem?_set_self hlt, List.getElem?_set_self (by simpa using hlt), rfl, rfl, rfl, rfl, ?_, rfl, rfl⟩
  · have hW : step { s with ctx := c', conns := s.conns.set i { k with sess := t, inbuf := rest, phase := .writing r } } (.writeErr i) =
        some (.done { s with ctx := c', conns := (s.conns.set i { k with sess := t, inbuf := rest, phase := .writing r }).set i kB }) := by
      simp only [step, List.getElem?_set_self hlt]
      rfl
    simp only [run, hB]
    rw [hW]
  · intro j hj
    exact ⟨List.getElem?_set_ne (Ne.symm hj), by
      rw [List.getElem?_set_ne (Ne.symm hj), List.getElem?_set_ne (Ne.symm hj)]⟩

/-- Requests to `Connection` change no data. -/
theorem only_connection [StdSort] (h0 : Serial pwd c l d) {d' : Ctx} (h : Serial pwd c (l ++ m) d') (hm : ∀ q ∈ m, ToConnection q.line) :
    SameData d d' := by
  induction m using List.reverseRecOn generalizing d' with
  | nil =>
    rw [List.append_nil] at h
    rw [(serial_det h0 h rfl).2]; exact ⟨rfl, rfl⟩
  | append_singleton m q ih =>
    rw [← List.append_assoc] at h
    obtain ⟨x, hx, _, hq⟩ := serial_snoc h
    have h1 := ih hx fun q hq => hm q (by simp [hq])
    rcases hq with ⟨_, _, _, _, h3⟩ | ⟨_, _, _, rfl⟩
    · exact sameData_trans h1 (toConnection_sameData (hm q (by simp)) h3)
    · exact h1

/-- C95: the doubt does not matter for requests that may be repeated (C69): if the client sends the request again, from a new connection that it
has authenticated, the data are the same afterwards, whether the first copy was executed or not. -/
theorem C95_send_again [StdSort] (hc : Reachable c) (h0 : Serial pwd c l d) (hq : Retriable d line) (hm : ∀ q ∈ m, ToConnection q.line)
    (ha : Authenticated pwd (l ++ m) j) (hA : Serial pwd c (l ++ m ++ [⟨j, line, r1⟩]) cA)
    (hB : Serial pwd c (l ++ [⟨i, line, r⟩] ++ m ++ [⟨j, line, r2⟩]) cB) : SameData cA cB := by
  have hd := serial_reachable hc h0
  obtain ⟨dA, hdA, hclA, hxA⟩ := serial_snoc hA
  obtain ⟨dB, hdB, hclB, hxB⟩ := serial_snoc hB
  obtain ⟨d1, hd1⟩ := serial_prefix hdB
  obtain ⟨d', hd', hcl1, hx1⟩ := serial_snoc hd1
  obtain rfl : d = d' := (serial_det h0 hd' rfl).2
  have sA : SameData d dA := only_connection h0 hdA hm
  have sB : SameData d1 dB := only_connection hd1 hdB hm
  have haB : Authenticated pwd (l ++ [⟨i, line, r⟩] ++ m) j := by
    rcases ha with ha | ⟨q, hq, h⟩
    · exact .inl ha
    · exact .inr ⟨q, by simp only [List.mem_append] at hq ⊢; tauto, h⟩
  have full : ∀ {l : List Request} {j : Nat} {s : Session}, Authenticated pwd l j → ¬ Closed l j → SessionAfter pwd l j s → s = ⟨true, true⟩ := by
    intro l j s h1 h2 h3
    obtain ⟨x, y⟩ := s
    have e1 := h3.2.2 h2
    have e2 := h3.1.2 h1
    simp only at e1 e2
    rw [e1, e2]
  by_cases hto : ToConnection line
  · have h1 : SameData d d1 := by
      rcases hx1 with ⟨_, _, _, _, h⟩ | ⟨_, _, _, rfl⟩
      · exact toConnection_sameData hto h
      · exact ⟨rfl, rfl⟩
    have h2 : SameData dA cA := by
      rcases hxA with ⟨_, _, _, _, h⟩ | ⟨_, h, _⟩
      · exact toConnection_sameData hto h
      · exact absurd hto h
    have h3 : SameData dB cB := by
      rcases hxB with ⟨_, _, _, _, h⟩ | ⟨_, h, _⟩
      · exact toConnection_sameData hto h
      · exact absurd hto h
    exact sameData_trans (sameData_symm (sameData_trans sA h2)) (sameData_trans h1 (sameData_trans sB h3))
  obtain ⟨tA, tA', gA, _, eA⟩ := hxA.resolve_right fun h => h.1 ha
  obtain ⟨tB, tB', gB, _, eB⟩ := hxB.resolve_right fun h => h.1 haB
  cases full ha hclA gA
  cases full haB hclB gB
  have same : ∀ {x y z : Ctx} {t : Option Session} {q : Str}, SameData x y → execute pwd x (some ⟨true, true⟩) line = .done (z, t, q) →
      ∀ {z' : Ctx} {t' : Option Session} {q' : Str}, execute pwd y (some ⟨true, true⟩) line = .done (z', t', q') → SameData z z' := by
    intro x y z t q h1 h2 z' t' q' h3
    have := execute_sameData pwd (some ⟨true, true⟩) line h1
    rw [h2, h3] at this
    exact this.1
  rcases hx1 with ⟨t1, t1', g1, a1, e1⟩ | ⟨_, _, _, rfl⟩
  · cases full (a1.resolve_right hto) hcl1 g1
    obtain ⟨c2, q2, e2, h2⟩ := C69_retry hd e1 hq
    obtain ⟨t', e, x1, x2⟩ := execute_session (reachable_inv hd) e1
    cases e
    have : t1' = ⟨true, true⟩ := by
      obtain ⟨x, y⟩ := t1'
      have n1 : ¬ Closes line := fun h => hto ⟨_, _, h⟩
      have y1 := x1.2 (.inl rfl)
      have y2 := x2.2 ⟨rfl, n1⟩
      simp only at y1 y2
      rw [y1, y2]
    subst this
    have h3 := same sA e1 eA
    have h4 := same sB e2 eB
    exact sameData_trans (sameData_symm h3) (sameData_trans h2 h4)
  · exact same (sameData_trans (sameData_symm sA) sB) eA eB

/-- A request that is not for `Connection` makes no difference to the sessions. -/
theorem authenticated_skip {q : Request} (hto : ¬ ToConnection q.line) : Authenticated pwd (l ++ [q] ++ m) j ↔ Authenticated pwd (l ++ m) j := by
  have : ¬ Presents pwd q.line := fun ⟨_, h, _⟩ => hto ⟨_, _, h⟩
  unfold Authenticated
  refine or_congr Iff.rfl ⟨?_, ?_⟩
  · rintro ⟨x, hx, h1, h2⟩
    simp only [List.mem_append, List.mem_singleton] at hx
    rcases hx with (hx | rfl) | hx
    · exact ⟨x, by simp [hx], h1, h2⟩
    · exact absurd h2 this
    · exact ⟨x, by simp [hx], h1, h2⟩
  · rintro ⟨x, hx, h⟩
    exact ⟨x, by simp only [List.mem_append] at hx ⊢; tauto, h⟩

theorem closed_skip {q : Request} (hto : ¬ ToConnection q.line) : Closed (l ++ [q] ++ m) j ↔ Closed (l ++ m) j := by
  have : ¬ Closes q.line := fun h => hto ⟨_, _, h⟩
  unfold Closed
  constructor
  · rintro ⟨x, hx, h1, h2⟩
    simp only [List.mem_append, List.mem_singleton] at hx
    rcases hx with (hx | rfl) | hx
    · exact ⟨x, by simp [hx], h1, h2⟩
    · exact absurd h2 this
    · exact ⟨x, by simp [hx], h1, h2⟩
  · rintro ⟨x, hx, h⟩
    exact ⟨x, by simp only [List.mem_append] at hx ⊢; tauto, h⟩

theorem sessionAfter_same {l l' : List Request} {s s' : Session} (ha : Authenticated pwd l' j ↔ Authenticated pwd l j) (hcl : Closed l' j ↔ Closed l j)
    (h : SessionAfter pwd l j s) (h' : SessionAfter pwd l' j s') : s' = s := by
  obtain ⟨a, b⟩ := s
  obtain ⟨a', b'⟩ := s'
  obtain ⟨h1, h2⟩ := h
  obtain ⟨h3, h4⟩ := h'
  simp only at h1 h2 h3 h4
  have e1 : a' = true ↔ a = true := by rw [h2, h4, hcl]
  have e2 : b' = true ↔ b = true := by rw [h1, h3, ha]
  rw [Bool.eq_iff_iff.2 e1, Bool.eq_iff_iff.2 e2]

/-- Requests that touch other variables do not notice whether the request was executed. -/
theorem unnoticed [StdSort] {q : Request} {d1 dA dB : Ctx} {m' : List Request} (hc : Reachable c) (h0 : Serial pwd c l d) (h1 : Serial pwd c (l ++ [q]) d1)
    (hto : ¬ ToConnection q.line) (hag : AgreeOn (fun n => ¬ Touches q.line n) d d1)
    (hm : ∀ x ∈ m, ¬ SetsSetting x.line ∧ ∀ n, Touches x.line n → ¬ Touches q.line n)
    (hmm : m'.map (fun x => (x.conn, x.line)) = m.map fun x => (x.conn, x.line)) (hA : Serial pwd c (l ++ m) dA) (hB : Serial pwd c (l ++ [q] ++ m') dB) :
    m' = m ∧ AgreeOn (fun n => ¬ Touches q.line n) dA dB ∧ AgreeOn (Touches q.line) dA d ∧ AgreeOn (Touches q.line) dB d1 := by
  induction m using List.reverseRecOn generalizing m' dA dB with
  | nil =>
    obtain rfl : m' = [] := by simpa using hmm
    rw [List.append_nil] at hA hB
    rw [← (serial_det h0 hA rfl).2, ← (serial_det h1 hB rfl).2]
    exact ⟨rfl, hag, ⟨rfl, fun _ _ _ => Iff.rfl⟩, ⟨rfl, fun _ _ _ => Iff.rfl⟩⟩
  | append_singleton m x ih =>
    obtain ⟨m', x', rfl⟩ : ∃ l y, m' = l ++ [y] := by
      rcases List.eq_nil_or_concat m' with rfl | ⟨l, y, rfl⟩
      · simp at hmm
      · exact ⟨l, y, by simp⟩
    rw [List.map_append, List.map_append] at hmm
    obtain ⟨e1, e2⟩ := List.append_inj' hmm rfl
    simp only [List.map_cons, List.map_nil, List.cons.injEq, Prod.mk.injEq, and_true] at e2
    obtain ⟨xi, xl, xr⟩ := x
    obtain ⟨xi', xl', xr'⟩ := x'
    obtain ⟨rfl, rfl⟩ := e2
    rw [← List.append_assoc] at hA hB
    obtain ⟨fA, gA, _, kA⟩ := serial_snoc hA
    obtain ⟨fB, gB, _, kB⟩ := serial_snoc hB
    obtain ⟨rfl, a1, a2, a3⟩ := ih (fun x hx => hm x (by simp [hx])) e1 gA gB
    obtain ⟨n1, n2⟩ := hm ⟨xi', xl', xr⟩ (by simp)
    simp only at n1 n2 kA kB
    have hau : Authenticated pwd (l ++ [q] ++ m') xi' ↔ Authenticated pwd (l ++ m') xi' := authenticated_skip hto
    have iA := reachable_inv (serial_reachable hc gA)
    have iB := reachable_inv (serial_reachable hc gB)
    rcases kA with ⟨s, t, k1, k2, k3⟩ | ⟨k1, k2, k3, rfl⟩
    · obtain ⟨s', t', k4, _, k6⟩ := kB.resolve_right fun h => (k2.elim (fun h' => h.1 (hau.2 h')) h.2.1)
      obtain rfl := sessionAfter_same hau (closed_skip hto) k1 k4
      have e := execute_agreeOn pwd iA iB (some s') xl' (N := fun n => ¬ Touches q.line n) n2 a1
      rw [k3, k6] at e
      obtain ⟨b1, _, rfl⟩ := e
      refine ⟨rfl, b1, agreeOn_trans ?_ a2, agreeOn_trans ?_ a3⟩
      · exact agreeOn_of_lookup (execute_cfg iA k3 n1) fun n hn => execute_frame iA k3 fun h => n2 n h hn
      · exact agreeOn_of_lookup (execute_cfg iB k6 n1) fun n hn => execute_frame iB k6 fun h => n2 n h hn
    · obtain ⟨_, _, rfl, rfl⟩ := kB.resolve_left fun ⟨_, _, _, h, _⟩ => h.elim (fun h => k1 (hau.1 h)) k2
      rw [k3]
      exact ⟨rfl, a1, a2, a3⟩

/-- C95: others may work in between, on other variables: if the client sends the request again later, and the requests executed between the two
copies do not touch the variables that it touches (and change no settings), the others get the same replies whether the first copy was
executed or not, and the data are the same afterwards. -/
theorem C95_send_again_later [StdSort] {m' : List Request} (hc : Reachable c) (h0 : Serial pwd c l d) (hq : Retriable d line) (hto : ¬ ToConnection line)
    (hns : ¬ SetsSetting line) (hm : ∀ x ∈ m, ¬ SetsSetting x.line ∧ ∀ n, Touches x.line n → ¬ Touches line n) (ha : Authenticated pwd (l ++ m) j)
    (hmm : m'.map (fun x => (x.conn, x.line)) = m.map fun x => (x.conn, x.line)) (hA : Serial pwd c (l ++ m ++ [⟨j, line, r1⟩]) cA)
    (hB : Serial pwd c (l ++ [⟨i, line, r⟩] ++ m' ++ [⟨j, line, r2⟩]) cB) : m' = m ∧ SameData cA cB := by
  have hd := serial_reachable hc h0
  obtain ⟨dA, hdA, hclA, hxA⟩ := serial_snoc hA
  obtain ⟨dB, hdB, hclB, hxB⟩ := serial_snoc hB
  obtain ⟨d1, hd1⟩ := serial_prefix hdB
  obtain ⟨d', hd', hcl1, hx1⟩ := serial_snoc hd1
  obtain rfl : d = d' := (serial_det h0 hd' rfl).2
  simp only at hxA hxB hx1 hclA hclB hcl1
  have id := reachable_inv hd
  have hag : AgreeOn (fun n => ¬ Touches line n) d d1 := by
    rcases hx1 with ⟨_, _, _, _, h⟩ | ⟨_, _, _, rfl⟩
    · exact agreeOn_symm (agreeOn_of_lookup (execute_cfg id h hns) fun n hn => execute_frame id h hn)
    · exact ⟨rfl, fun _ _ _ => Iff.rfl⟩
  obtain ⟨rfl, a1, a2, a3⟩ := unnoticed hc h0 hd1 hto hag hm hmm hdA hdB
  refine ⟨rfl, ?_⟩
  have haB : Authenticated pwd (l ++ [⟨i, line, r⟩] ++ m') j := (authenticated_skip hto).2 ha
  obtain ⟨tA, tA', gA, _, eA⟩ := hxA.resolve_right fun h => h.1 ha
  obtain ⟨tB, tB', gB, _, eB⟩ := hxB.resolve_right fun h => h.1 haB
  cases sessionAfter_same (authenticated_skip hto) (closed_skip hto) gA gB
  have iA := reachable_inv (serial_reachable hc hdA)
  have iB := reachable_inv (serial_reachable hc hdB)
  have iA' := reachable_inv (serial_reachable hc hA)
  have iB' := reachable_inv (serial_reachable hc hB)
  have i1 := reachable_inv (serial_reachable hc hd1)
  have outside : ∀ n, ¬ Touches line n → cB.vars.lookup n = cA.vars.lookup n := fun n hn => by
    rw [execute_frame iA eA hn, execute_frame iB eB hn, agreeOn_lookup a1 hn]
  have settings : cB.cfg = cA.cfg := by rw [execute_cfg iA eA hns, execute_cfg iB eB hns, a1.1]
  refine ⟨vars_ext _ _ iB'.asc iA'.asc fun n => ?_, settings⟩
  by_cases hn : Touches line n
  · rcases hx1 with ⟨t1, t1', g1, b1, e1⟩ | ⟨_, _, _, rfl⟩
    · have st1 : t1 = ⟨true, true⟩ := by
        obtain ⟨x, y⟩ := t1
        have y1 := g1.1.2 (b1.resolve_right hto)
        have y2 := g1.2.2 hcl1
        simp only at y1 y2
        rw [y1, y2]
      have stA : tA = ⟨true, true⟩ := by
        obtain ⟨x, y⟩ := tA
        have y1 := gA.1.2 ha
        have y2 := gA.2.2 hclA
        simp only at y1 y2
        rw [y1, y2]
      subst st1 stA
      obtain ⟨c2, q2, e2, h2⟩ := C69_retry hd e1 hq
      obtain ⟨t', e, x1, x2⟩ := execute_session id e1
      cases e
      have : t1' = ⟨true, true⟩ := by
        obtain ⟨x, y⟩ := t1'
        have y1 := x1.2 (.inl rfl)
        have y2 := x2.2 ⟨rfl, fun h => hto ⟨_, _, h⟩⟩
        simp only at y1 y2
        rw [y1, y2]
      subst this
      have f1 := execute_agreeOn pwd iA id (some ⟨true, true⟩) line (N := Touches line) (fun _ h => h) a2
      have f2 := execute_agreeOn pwd iB i1 (some ⟨true, true⟩) line (N := Touches line) (fun _ h => h) a3
      rw [eA, e1] at f1
      rw [eB, e2] at f2
      rw [agreeOn_lookup f1.1 hn, agreeOn_lookup f2.1 hn, h2.1]
    · have a4 : AgreeOn (Touches line) dA dB := agreeOn_trans a2 (agreeOn_symm a3)
      have f := execute_agreeOn pwd iA iB (some tA) line (N := Touches line) (fun _ h => h) a4
      rw [eA, eB] at f
      exact (agreeOn_lookup f.1 hn).symm
  · exact outside n hn

/-- Adding to a number may be executed once or not at all; the client cannot tell. -/
example [StdSort] : ∃ s sA sB : Server, Reachable s.ctx ∧ run s [.readErr 0] = some (.done sA) ∧ run s [.read 0, .writeErr 0] = some (.done sB) ∧
    Holds sA.ctx b!"i" (.integer (-7)) ∧ Holds sB.ctx b!"i" (.integer (-6)) := by
  obtain ⟨sA, sB, _, _, h1, h2, _, _, _, _, _, _, _, h3, h4⟩ := C95_one_in_doubt (s := ⟨[], demo, [⟨⟨true, true⟩, b!"i add: 1;\n", .reading, []⟩], true⟩)
    (i := 0) (line := b!"i add: 1;") (rest := []) (r := b!"null") (c' := demoWith b!"i" (.integer (-6)))
    (t := ⟨true, true⟩) demo_reachable rfl rfl rfl rfl rfl (by decide)
    (fun h => absurd (statement_same h (reads (by kernel_rfl) : Statement b!"i add: 1;" b!"i" b!"add:" [b!"1"])).1 (by decide)) (by kernel_rfl)
  exact ⟨_, sA, sB, demo_reachable, h1, h2, by rw [h3]; decide +kernel, by rw [h4]; decide +kernel⟩

/-- What the first theorem says of the demonstration. -/
example [StdSort] : ∃ log n, Explains b!"pw" fresh demoEvents demoServer log ∧ (requestsOf 0 log).length = n + 1 := by
  obtain ⟨log, n, h1, h2, h3, h4⟩ := C95_at_most_one fresh_reachable demo_run (i := 0) rfl
  refine ⟨log, n, h1, h4.elim (fun h4 => ?_) (·.1)⟩
  obtain ⟨rs, e1, e2⟩ := h1.output 0 _ rfl
  rw [← h4, List.take_length] at h2
  rw [e1] at h2
  have := e2.symm.trans h2
  simp [wire] at this

/-- Setting a number may be repeated, with the work of others in between. -/
example [StdSort] : let l : List Request := [⟨1, b!"v get;", b!"[3,1,2]"⟩]
    let m : List Request := [⟨1, b!"v clear;", b!"null"⟩]
    ∃ d cA cB, Serial [] demo l d ∧ Retriable d b!"i set: 5;" ∧ ¬ ToConnection b!"i set: 5;" ∧ ¬ SetsSetting b!"i set: 5;" ∧
      (∀ x ∈ m, ¬ SetsSetting x.line ∧ ∀ n, Touches x.line n → ¬ Touches b!"i set: 5;" n) ∧ Authenticated [] (l ++ m) 2 ∧
      Serial [] demo (l ++ m ++ [⟨2, b!"i set: 5;", b!"null"⟩]) cA ∧
      Serial [] demo (l ++ [⟨0, b!"i set: 5;", b!"null"⟩] ++ m ++ [⟨2, b!"i set: 5;", b!"null"⟩]) cB := by
  have hs : Statement b!"i set: 5;" b!"i" b!"set:" [b!"5"] := reads (by kernel_rfl)
  have hv : Statement b!"v clear;" b!"v" b!"clear" [] := reads (by kernel_rfl)
  have iv : Variable b!"i" := (isVariable_iff _).1 (by decide)
  have vv : Variable b!"v" := (isVariable_iff _).1 (by decide)
  refine ⟨demo, { demo with vars := updateVar b!"i" (.integer 5) (updateVar b!"v" (.vector b!"Integer" []) demo.vars) },
    { demo with vars := updateVar b!"i" (.integer 5) (updateVar b!"v" (.vector b!"Integer" []) demo.vars) },
    serially_serial (ls := [(1, b!"v get;")]) .nil (by simp) (by kernel_rfl), ?_, ?_, ?_, ?_, .inl rfl,
    serially_serial (ls := [(1, b!"v get;"), (1, b!"v clear;"), (2, b!"i set: 5;")]) .nil (by simp) (by kernel_rfl),
    serially_serial (ls := [(1, b!"v get;"), (0, b!"i set: 5;"), (1, b!"v clear;"), (2, b!"i set: 5;")]) .nil (by simp) (by kernel_rfl)⟩
  · intro a name args h _ x hx
    obtain ⟨rfl, rfl, rfl⟩ := statement_unique hs h
    cases hx
    exact .inr (by decide)
  · rintro ⟨_, _, h⟩
    exact absurd (statement_unique hs h).1 (by decide)
  · rintro (h | h)
    · exact absurd (statement_unique hs h).1 (by decide)
    · exact absurd (statement_unique hs h).1 (by decide)
  · intro x hx
    obtain rfl : x = _ := by simpa using hx
    refine ⟨?_, fun n hn hn' => ?_⟩
    · rintro (h | h)
      · exact absurd (statement_unique hv h).1 (by decide)
      · exact absurd (statement_unique hv h).1 (by decide)
    · rw [touches_message hv vv hn] at hn'
      exact absurd (touches_message hs iv hn') (by decide)

end Knuckle.Props
