import Verif.Model.Sessions
import Verif.Proofs.HeapContext

namespace Knuckle.Heap

/-- The `Session` object of a connection. -/
def sockOf : Option Conn → Option (Sock × Nat)
  | some k => if k.phase = .dead then none else some (⟨k.sess, k.inbuf⟩, 1)
  | none => none

/-- The operations pending for a connection. -/
def handlersOf (i : Nat) : Phase → List Handler
  | .reading => [.read i]
  | .writing r => [.write i r]
  | .dead => []

/-- The connection a handler belongs to. -/
def Handler.target : Handler → Option Nat
  | .accept => none
  | .read i => some i
  | .write i _ => some i

/-- How often a handler should be pending. -/
def expected (s : Server) (h : Handler) : Nat := match h.target with
  | none => if s.accepting then 1 else 0
  | some i => match s.conns[i]? with
    | some k => (handlersOf i k.phase).count h
    | none => 0

/-- The process with `Session` objects stands for the process with phases. -/
structure Backs (hs : HServer) (s : Server) : Prop where
  pwd : hs.pwd = s.pwd
  ctx : Stands hs.ctx s.ctx
  next : hs.socks.next = s.conns.length
  wires : hs.wires = s.conns.map (·.out)
  cells : ∀ i, hs.socks.cells i = sockOf s.conns[i]?
  pending : ∀ h, hs.pending.count h = expected s h

theorem backs_init (pwd : Str) {h : HCtx} {c : Ctx} (hs : Stands h c) : Backs (HServer.init pwd h) (Server.init pwd c) := by
  refine ⟨rfl, hs, rfl, rfl, fun i => rfl, fun h => ?_⟩
  cases h <;> simp [HServer.init, Server.init, expected, Handler.target]

theorem handlers_target {i : Nat} {ph : Phase} {h : Handler} (hm : h ∈ handlersOf i ph) : h.target = some i := by
  cases ph <;> simp [handlersOf] at hm <;> subst hm <;> rfl

theorem put_put (m : Socks) (p : Nat) (c d : Option (Sock × Nat)) : (m.put p c).put p d = m.put p d := by
  unfold Socks.put
  simp only [Socks.mk.injEq, true_and]
  funext q
  split <;> rfl

theorem put_cells (m : Socks) (p : Nat) (c : Option (Sock × Nat)) (q : Nat) :
    (m.put p c).cells q = if q = p then c else m.cells q := rfl

/-- Connection `i` changes: the operation it had pending is gone, that of its new phase is pending. -/
theorem backs_set {hs hs' : HServer} {s : Server} (hb : Backs hs s) {i : Nat} {k k' : Conn} (hk : s.conns[i]? = some k)
    {c' : Ctx} (hpwd : hs'.pwd = hs.pwd) (hctx : Stands hs'.ctx c') (hsock : hs'.socks = hs.socks.put i (sockOf (some k')))
    (hw : hs'.wires = hs.wires.set i k'.out)
    (hp : ∀ h, hs'.pending.count h + (handlersOf i k.phase).count h = hs.pending.count h + (handlersOf i k'.phase).count h) :
    Backs hs' { s with ctx := c', conns := s.conns.set i k' } := by
  have hi : i < s.conns.length := (List.getElem?_eq_some_iff.1 hk).1
  refine ⟨hpwd.trans hb.pwd, hctx, ?_, ?_, ?_, ?_⟩
  · rw [hsock]
    simp only [Socks.put, List.length_set]
    exact hb.next
  · rw [hw, hb.wires]
    simp [List.map_set]
  · intro j
    rw [hsock, put_cells]
    by_cases e : j = i
    · subst e
      simp [hi]
    · rw [if_neg e, hb.cells j, List.getElem?_set_ne (Ne.symm e)]
  · intro h
    have h0 := hp h
    rw [hb.pending h] at h0
    unfold expected at h0 ⊢
    rcases ht : h.target with _ | j
    · rw [ht] at h0
      have z : ∀ ph, (handlersOf i ph).count h = 0 := fun ph => List.count_eq_zero.2 fun hm => by
        rw [handlers_target hm] at ht; cases ht
      rw [z, z] at h0
      exact h0
    · rw [ht] at h0
      by_cases e : j = i
      · subst e
        simp only [hk] at h0
        simp only [List.getElem?_set_self hi]
        omega
      · have z : ∀ ph, (handlersOf i ph).count h = 0 := fun ph => List.count_eq_zero.2 fun hm => by
          rw [handlers_target hm] at ht; cases ht; exact e rfl
        rw [z, z] at h0
        simp only [List.getElem?_set_ne (Ne.symm e)]
        exact h0

theorem start_ok {p : Nat} {h : Handler} {s : HServer} {c : Sock} {n : Nat} (e : s.socks.cells p = some (c, n + 1)) :
    start p h s = .done { s with socks := s.socks.put p (some (c, n + 2)), pending := s.pending ++ [h] } := by
  have e1 : Socks.copy p s.socks = some (s.socks.put p (some (c, n + 2))) := by simp [Socks.copy, e]
  have e2 : Socks.copy p (s.socks.put p (some (c, n + 2))) = some (s.socks.put p (some (c, n + 3))) := by
    simp [Socks.copy, put_cells, put_put]
  have e3 : Socks.release p (s.socks.put p (some (c, n + 3))) = some (s.socks.put p (some (c, n + 2))) := by
    simp [Socks.release, put_cells, put_put]
  simp only [start, HServer.act, e1, andThen, e2, e3]

theorem release_last {p : Nat} {m : Socks} {c : Sock} (e : m.cells p = some (c, 1)) :
    Socks.release p m = some (m.put p none) := by
  simp [Socks.release, e]

theorem release_more {p : Nat} {m : Socks} {c : Sock} {n : Nat} (e : m.cells p = some (c, n + 2)) :
    Socks.release p m = some (m.put p (some (c, n + 1))) := by
  simp [Socks.release, e]

/-- Both end in the same way, in related states. -/
def OutSim : Option (Outcome HServer) → Option (Outcome Server) → Prop
  | none, none => True
  | some .ub, some .ub => True
  | some (.done hs), some (.done s) => Backs hs s
  | _, _ => False

theorem mem_accept {hs : HServer} {s : Server} (hb : Backs hs s) : Handler.accept ∈ hs.pending ↔ s.accepting = true := by
  rw [← List.count_pos_iff, hb.pending]
  simp only [expected, Handler.target]
  split <;> simp [*]

theorem mem_read {hs : HServer} {s : Server} (hb : Backs hs s) (i : Nat) :
    Handler.read i ∈ hs.pending ↔ ∃ k, s.conns[i]? = some k ∧ k.phase = .reading := by
  rw [← List.count_pos_iff, hb.pending]
  simp only [expected, Handler.target]
  rcases e : s.conns[i]? with _ | k
  · simp
  · cases ep : k.phase <;> simp [handlersOf, ep]

theorem mem_write {hs : HServer} {s : Server} (hb : Backs hs s) (i : Nat) (r : Str) :
    Handler.write i r ∈ hs.pending ↔ ∃ k, s.conns[i]? = some k ∧ k.phase = .writing r := by
  rw [← List.count_pos_iff, hb.pending]
  simp only [expected, Handler.target]
  rcases e : s.conns[i]? with _ | k
  · simp
  · cases ep : k.phase <;> simp [handlersOf, ep, List.count_cons]
    split <;> simp [*]

theorem find_write {hs : HServer} {s : Server} (hb : Backs hs s) (i : Nat) :
    hs.pending.findSome? (Handler.writes i) = match s.conns[i]? with
      | some k => match k.phase with
        | .writing r => some r
        | _ => none
      | none => none := by
  rcases e : hs.pending.findSome? (Handler.writes i) with _ | r
  · rw [List.findSome?_eq_none_iff] at e
    rcases ek : s.conns[i]? with _ | k
    · rfl
    · rcases ep : k.phase with _ | r | _
      · simp only [ep]
      · have := e _ ((mem_write hb i r).2 ⟨k, ek, ep⟩)
        simp [Handler.writes] at this
      · simp only [ep]
  · obtain ⟨h, hm, hw⟩ := List.exists_of_findSome?_eq_some e
    cases h with
    | accept => simp [Handler.writes] at hw
    | read j => simp [Handler.writes] at hw
    | write j r' =>
      simp only [Handler.writes] at hw
      split at hw
      · rename_i ej
        subst ej
        cases hw
        obtain ⟨k, ek, ep⟩ := (mem_write hb j r).1 hm
        simp only [ek, ep]
      · cases hw

theorem count_erase' (l : List Handler) (a h : Handler) (hm : a ∈ l) : (l.erase a).count h + [a].count h = l.count h := by
  rw [List.count_erase, List.count_cons, List.count_nil]
  by_cases e : a = h
  · subst e
    have := List.count_pos_iff.2 hm
    simp
    omega
  · simp [e]

theorem set_same {α : Type} (l : List α) (i : Nat) (a : α) (h : l[i]? = some a) : l.set i a = l := by
  obtain ⟨hi, e⟩ := List.getElem?_eq_some_iff.1 h
  rw [← e]
  exact List.set_getElem_self hi

theorem wire_at {hs : HServer} {s : Server} (hb : Backs hs s) {i : Nat} {k : Conn} (hk : s.conns[i]? = some k) :
    hs.wires[i]? = some k.out := by
  rw [hb.wires]; simp [hk]

/-- The line is refused: the session is not authenticated. -/
theorem refuse_sim {hs : HServer} {s : Server} (hb : Backs hs s) {i : Nat} {k : Conn} (hm : Handler.read i ∈ hs.pending)
    (hk : s.conns[i]? = some k) (hp : k.phase = .reading) (rest : Str) {r : Str} :
    OutSim (some (andThen (doWrite i r
        { hs with socks := hs.socks.put i (some (⟨k.sess, rest⟩, 1)), pending := hs.pending.erase (.read i) }) fun s =>
        s.act (Socks.release i)))
      (some (.done { s with conns := s.conns.set i { k with inbuf := rest, phase := .writing r } })) := by
  simp only [doWrite]
  rw [start_ok (s := { hs with socks := hs.socks.put i (some (⟨k.sess, rest⟩, 1)), pending := hs.pending.erase (.read i) })
    (c := ⟨k.sess, rest⟩) (n := 0) (by simp [put_cells])]
  simp only [andThen, HServer.act, put_put]
  rw [release_more (c := ⟨k.sess, rest⟩) (n := 0) (by simp [put_cells])]
  refine backs_set (k' := { k with inbuf := rest, phase := .writing r }) hb hk rfl hb.ctx ?_ ?_ ?_
  · simp [sockOf, put_put]
  · exact (set_same _ _ _ (wire_at hb hk)).symm
  · intro h
    have := count_erase' hs.pending (.read i) h hm
    simp only [hp, handlersOf, List.count_append]
    omega

/-- The line is executed. -/
theorem exec_sim [PosSort] {hs : HServer} {s : Server} (hb : Backs hs s) {i : Nat} {k : Conn} (hm : Handler.read i ∈ hs.pending)
    (hk : s.conns[i]? = some k) (hp : k.phase = .reading) (line rest : Str) :
    OutSim (some (andThen (andThen (executeLine i ⟨k.sess, rest⟩ line
        { hs with socks := hs.socks.put i (some (⟨k.sess, rest⟩, 1)), pending := hs.pending.erase (.read i) })
        fun (s, sess', out) => if sess'.connected then doWrite i out s else .done s) fun s => s.act (Socks.release i)))
      (some (match @Knuckle.execute stdSortOf s.pwd s.ctx (some k.sess) line with
        | .done (ctx', some sess', out) =>
          .done { s with
            ctx := ctx'
            conns := s.conns.set i
              { k with sess := sess', inbuf := rest, phase := if sess'.connected then .writing out else .dead } }
        | _ => .ub)) := by
  unfold executeLine
  have e1 : Socks.copy i (hs.socks.put i (some (⟨k.sess, rest⟩, 1))) = some (hs.socks.put i (some (⟨k.sess, rest⟩, 2))) := by
    simp [Socks.copy, put_cells, put_put]
  simp only [HServer.act, e1, hb.pwd]
  rcases execute_sim s.pwd hb.ctx (some k.sess) line with ⟨h', c', s', r, x1, x2, hst⟩ | ⟨x1, x2⟩
  · rw [x2]
    simp only [andThen, x1]
    rcases s' with _ | sess'
    · trivial
    · have e2 : Socks.store i ⟨sess', rest⟩ (hs.socks.put i (some (⟨k.sess, rest⟩, 2))) =
          some (hs.socks.put i (some (⟨sess', rest⟩, 2))) := by
        simp [Socks.store, put_cells, put_put]
      have e3 : Socks.release i (hs.socks.put i (some (⟨sess', rest⟩, 2))) =
          some (hs.socks.put i (some (⟨sess', rest⟩, 1))) := by
        simp [Socks.release, put_cells, put_put]
      simp only [e2, e3]
      by_cases hc : sess'.connected = true
      · simp only [hc, if_true, doWrite]
        rw [start_ok (c := ⟨sess', rest⟩) (n := 0) (by simp [put_cells])]
        simp only [put_put]
        rw [release_more (c := ⟨sess', rest⟩) (n := 0) (by simp [put_cells])]
        refine backs_set (k' := { k with sess := sess', inbuf := rest, phase := .writing r }) hb hk hb.pwd.symm hst ?_ ?_ ?_
        · simp [sockOf, put_put]
        · exact (set_same _ _ _ (wire_at hb hk)).symm
        · intro h
          have := count_erase' hs.pending (.read i) h hm
          simp only [hp, handlersOf, List.count_append]
          omega
      · simp only [hc]
        simp only [Bool.false_eq_true, if_false]
        rw [release_last (c := ⟨sess', rest⟩) (by simp [put_cells])]
        refine backs_set (k' := { k with sess := sess', inbuf := rest, phase := .dead }) hb hk hb.pwd.symm hst ?_ ?_ ?_
        · simp [sockOf, put_put]
        · exact (set_same _ _ _ (wire_at hb hk)).symm
        · intro h
          have := count_erase' hs.pending (.read i) h hm
          simp only [hp, handlersOf, List.count_nil]
          omega
  · rw [x2]
    simp only [andThen, x1]
    trivial

theorem read_sim [PosSort] {hs : HServer} {s : Server} (hb : Backs hs s) {i : Nat} {k : Conn} (hm : Handler.read i ∈ hs.pending)
    (hk : s.conns[i]? = some k) (hp : k.phase = .reading) (line rest : Str) :
    OutSim (some (readHandler i ⟨k.sess, k.inbuf⟩ line rest (hs.take (.read i))))
      (some (@handleLine stdSortOf s i k line rest)) := by
  have e := hb.cells i
  rw [hk] at e
  simp only [sockOf, hp, reduceCtorEq, if_false] at e
  have st : Socks.store i ⟨k.sess, rest⟩ hs.socks = some (hs.socks.put i (some (⟨k.sess, rest⟩, 1))) := by
    simp [Socks.store, e]
  have hw := wire_at hb hk
  unfold readHandler handleLine
  simp only [HServer.act, HServer.take, st, andThen]
  rcases parse line with p | x | _
  · simp only
    by_cases ha : (k.sess.authed || isConnection p.actor) = true
    · rw [if_pos ha, if_pos ha]
      exact exec_sim hb hm hk hp line rest
    · rw [if_neg ha, if_neg ha]
      exact refuse_sim hb hm hk hp rest
  · simp only
    by_cases ha : (k.sess.authed || isConnection []) = true
    · rw [if_pos ha, if_pos ha]
      exact exec_sim hb hm hk hp line rest
    · rw [if_neg ha, if_neg ha]
      exact refuse_sim hb hm hk hp rest
  · trivial

theorem step_sim [PosSort] {hs : HServer} {s : Server} (hb : Backs hs s) (e : Event) :
    OutSim (hstep hs e) (@Knuckle.step stdSortOf s e) := by
  cases e with
  | accept =>
    simp only [hstep, Knuckle.step]
    by_cases ha : s.accepting = true
    · rw [if_pos ((mem_accept hb).2 ha), if_pos ha]
      simp only [handleAccept, doRead]
      have e0 : hs.socks.cells hs.socks.next = none := by rw [hb.cells, hb.next]; simp [sockOf]
      rw [start_ok (c := ⟨Session.init hs.pwd, []⟩) (n := 0) (by simp [Socks.new, HServer.take])]
      simp only [andThen, HServer.act]
      rw [release_more (c := ⟨Session.init hs.pwd, []⟩) (n := 0) (by simp [put_cells, HServer.take])]
      simp only [doAccept, OutSim]
      refine ⟨hb.pwd, hb.ctx, ?_, ?_, ?_, ?_⟩
      · simp [Socks.put, Socks.new, HServer.take, hb.next]
      · simp [HServer.take, hb.wires, Conn.init]
      · intro i
        simp only [put_put, put_cells, HServer.take, Socks.new]
        by_cases e : i = hs.socks.next
        · rw [if_pos e, e, hb.next]
          simp [sockOf, Conn.init, hb.pwd]
        · rw [if_neg e]
          change (if i = hs.socks.next then _ else hs.socks.cells i) = _
          rw [if_neg e, hb.cells]
          rw [hb.next] at e
          rcases Nat.lt_or_ge i s.conns.length with h | h
          · rw [List.getElem?_append_left h]
          · rw [List.getElem?_eq_none h, List.getElem?_eq_none (by simp; omega)]
      · intro h
        have hc := count_erase' hs.pending .accept h ((mem_accept hb).2 ha)
        rw [hb.pending h] at hc
        simp only [HServer.take, List.count_append]
        unfold expected at hc ⊢
        cases h with
        | accept => simp [Handler.target, ha] at hc ⊢; omega
        | read i =>
          simp only [Handler.target] at hc ⊢
          have z : [Handler.accept].count (.read i) = 0 := by simp [List.count_cons]
          rw [z] at hc ⊢
          simp only [Nat.add_zero] at hc ⊢
          rw [hc]
          rcases Nat.lt_trichotomy i s.conns.length with h | h | h
          · have : [Handler.read hs.socks.next].count (.read i) = 0 := by
              rw [hb.next]; simp [List.count_cons]; omega
            rw [this, List.getElem?_append_left h]; rfl
          · subst h
            simp [hb.next, Conn.init, handlersOf]
          · have : [Handler.read hs.socks.next].count (.read i) = 0 := by
              rw [hb.next]; simp [List.count_cons]; omega
            rw [this, List.getElem?_eq_none (by omega), List.getElem?_eq_none (by simp; omega)]
        | write i r =>
          simp only [Handler.target] at hc ⊢
          have z : [Handler.accept].count (.write i r) = 0 := by simp [List.count_cons]
          have z' : [Handler.read hs.socks.next].count (.write i r) = 0 := by simp [List.count_cons]
          rw [z] at hc ⊢
          rw [z']
          simp only [Nat.add_zero] at hc ⊢
          rw [hc]
          rcases Nat.lt_trichotomy i s.conns.length with h | h | h
          · rw [List.getElem?_append_left h]
          · subst h
            simp [Conn.init, handlersOf]
          · rw [List.getElem?_eq_none (by omega), List.getElem?_eq_none (by simp; omega)]
    · rw [if_neg (fun h => ha ((mem_accept hb).1 h)), if_neg ha]
      trivial
  | acceptErr =>
    simp only [hstep, Knuckle.step]
    by_cases ha : s.accepting = true
    · rw [if_pos ((mem_accept hb).2 ha), if_pos ha]
      refine ⟨hb.pwd, hb.ctx, hb.next, hb.wires, hb.cells, ?_⟩
      intro h
      have hc := count_erase' hs.pending .accept h ((mem_accept hb).2 ha)
      rw [hb.pending h] at hc
      simp only [HServer.take]
      unfold expected at hc ⊢
      cases h <;> simp [Handler.target, ha] at hc ⊢ <;> omega
    · rw [if_neg (fun h => ha ((mem_accept hb).1 h)), if_neg ha]
      trivial
  | recv i bytes =>
    simp only [hstep, Knuckle.step]
    rw [hb.cells i]
    rcases hk : s.conns[i]? with _ | k
    · trivial
    · by_cases hd : k.phase = .dead
      · simp only [sockOf, hd, if_true]
        trivial
      · simp only [sockOf, hd, if_false]
        refine backs_set (k' := { k with inbuf := k.inbuf ++ bytes }) hb hk rfl hb.ctx ?_ ?_ ?_
        · simp [sockOf, hd]
        · exact (set_same _ _ _ (wire_at hb hk)).symm
        · intro h; rfl
  | read i =>
    simp only [hstep, Knuckle.step]
    by_cases hm : Handler.read i ∈ hs.pending
    · obtain ⟨k, hk, hp⟩ := (mem_read hb i).1 hm
      rw [if_pos hm, hk]
      simp only [hp, if_true]
      have e := hb.cells i
      rw [hk] at e
      simp only [sockOf, hp] at e
      rw [e]
      simp only [reduceCtorEq, if_false]
      rcases splitLine k.inbuf with _ | ⟨line, rest⟩
      · trivial
      · exact read_sim hb hm hk hp line rest
    · rw [if_neg hm]
      rcases hk : s.conns[i]? with _ | k
      · trivial
      · have : k.phase ≠ .reading := fun hp => hm ((mem_read hb i).2 ⟨k, hk, hp⟩)
        simp only [this, if_false]
        trivial
  | readErr i =>
    simp only [hstep, Knuckle.step]
    by_cases hm : Handler.read i ∈ hs.pending
    · obtain ⟨k, hk, hp⟩ := (mem_read hb i).1 hm
      rw [if_pos hm, hk]
      simp only [hp, if_true]
      have e := hb.cells i
      rw [hk] at e
      simp only [sockOf, hp] at e
      simp only [HServer.act, HServer.take]
      rw [release_last e]
      refine backs_set (k' := { k with phase := .dead }) hb hk rfl hb.ctx ?_ ?_ ?_
      · simp [sockOf]
      · exact (set_same _ _ _ (wire_at hb hk)).symm
      · intro h
        have := count_erase' hs.pending (.read i) h hm
        simp only [hp, handlersOf, List.count_nil]
        omega
    · rw [if_neg hm]
      rcases hk : s.conns[i]? with _ | k
      · trivial
      · have : k.phase ≠ .reading := fun hp => hm ((mem_read hb i).2 ⟨k, hk, hp⟩)
        simp only [this, if_false]
        trivial
  | wrote i =>
    simp only [hstep, Knuckle.step]
    rw [find_write hb i]
    rcases hk : s.conns[i]? with _ | k
    · trivial
    · rcases hp : k.phase with _ | r | _
      · simp only [hp]; trivial
      · have hm := (mem_write hb i r).2 ⟨k, hk, hp⟩
        simp only [hp]
        by_cases hl : r.length + 1 ≤ 65536
        · rw [if_pos hl, if_pos hl]
          have e := hb.cells i
          rw [hk] at e
          simp only [sockOf, hp] at e
          simp only [doRead, HServer.take]
          rw [start_ok (s := { hs with pending := hs.pending.erase (.write i r), wires := hs.wires.modify i (· ++ (r ++ [10])) })
            (c := ⟨k.sess, k.inbuf⟩) (n := 0) e]
          simp only [andThen, HServer.act]
          rw [release_more (c := ⟨k.sess, k.inbuf⟩) (n := 0) (by simp [put_cells])]
          refine backs_set (k' := { k with phase := .reading, out := k.out ++ (r ++ [10]) }) hb hk rfl hb.ctx ?_ ?_ ?_
          · simp [sockOf, put_put]
          · have hw := wire_at hb hk
            obtain ⟨hi, e⟩ := List.getElem?_eq_some_iff.1 hw
            simp only
            rw [List.modify_eq_set_getElem?, hw]
            simp
          · intro h
            have := count_erase' hs.pending (.write i r) h hm
            simp only [hp, handlersOf, List.count_append]
            omega
        · rw [if_neg hl, if_neg hl]
          trivial
      · simp only [hp]; trivial
  | wroteShort i =>
    simp only [hstep, Knuckle.step]
    rw [find_write hb i]
    rcases hk : s.conns[i]? with _ | k
    · trivial
    · rcases hp : k.phase with _ | r | _
      all_goals simp only [hp]; trivial
  | writeErr i =>
    simp only [hstep, Knuckle.step]
    rw [find_write hb i]
    rcases hk : s.conns[i]? with _ | k
    · trivial
    · rcases hp : k.phase with _ | r | _
      · simp only [hp]; trivial
      · have hm := (mem_write hb i r).2 ⟨k, hk, hp⟩
        simp only [hp]
        have e := hb.cells i
        rw [hk] at e
        simp only [sockOf, hp] at e
        simp only [HServer.act, HServer.take]
        rw [release_last e]
        refine backs_set (k' := { k with phase := .dead }) hb hk rfl hb.ctx ?_ ?_ ?_
        · simp [sockOf]
        · exact (set_same _ _ _ (wire_at hb hk)).symm
        · intro h
          have := count_erase' hs.pending (.write i r) h hm
          simp only [hp, handlersOf, List.count_nil]
          omega
      · simp only [hp]; trivial

end Knuckle.Heap
