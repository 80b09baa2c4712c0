/-
C84: `Session` objects and the pending operations that own them; the server with pointers does what the server on values
does.
-/
import Verif.Proofs.HeapServer
import Verif.Spec.Sessions
import Verif.Props.Heap
import Verif.Props.Server
import Verif.Props.Log

namespace Knuckle.Props

open Spec
open Heap (HCtx PosSort HServer Handler Backs OutSim hstep hrun)

variable {prec : Int} {eps : Fl} {fileOpen quiet : Bool} {pwd : Str} {es es₁ es₂ : List Event} {hs hs' : HServer} {i : Nat}

theorem run_sim [PosSort] {s : Server} (hb : Backs hs s) (es : List Event) :
    OutSim (hrun hs es) (@Knuckle.run Heap.stdSortOf s es) := by
  induction es generalizing hs s with
  | nil => exact hb
  | cons e es ih =>
    have h := Heap.step_sim hb e
    simp only [hrun, Knuckle.run]
    revert h
    generalize hstep hs e = x
    generalize @Knuckle.step Heap.stdSortOf s e = y
    intro h
    match x, y, h with
    | none, none, _ => trivial
    | some .ub, some .ub, _ => trivial
    | some (.done x), some (.done y), h => exact ih h

theorem run_backs [PosSort] (h : hrun (HServer.init pwd (HCtx.init prec eps fileOpen quiet)) es = some (.done hs)) :
    ∃ s, @Knuckle.run Heap.stdSortOf (Server.init pwd (Ctx.init prec eps fileOpen quiet)) es = some (.done s) ∧ Backs hs s := by
  have := run_sim (Heap.backs_init pwd (stands_init prec eps fileOpen quiet)) es
  rw [h] at this
  revert this
  generalize @Knuckle.run Heap.stdSortOf _ es = y
  intro h
  match y, h with
  | some (.done y), h => exact ⟨y, rfl, h⟩

/-- C81: the whole server: whatever happens, the program with pointers to sessions and instances and the program on values
write the same bytes to every connection (and one has undefined behaviour exactly when the other has). -/
theorem C81_server [PosSort] (prec : Int) (eps : Fl) (fileOpen quiet : Bool) (pwd : Str) (es : List Event) :
    onWires (·.wires) (hrun (HServer.init pwd (HCtx.init prec eps fileOpen quiet)) es) =
      onWires (fun s => s.conns.map (·.out)) (@run Heap.stdSortOf (Server.init pwd (Ctx.init prec eps fileOpen quiet)) es) := by
  have := run_sim (Heap.backs_init pwd (stands_init prec eps fileOpen quiet)) es
  revert this
  generalize hrun _ es = x
  generalize @Knuckle.run Heap.stdSortOf _ es = y
  intro h
  match x, y, h with
  | none, none, _ => rfl
  | some .ub, some .ub, _ => rfl
  | some (.done x), some (.done y), h => simp only [onWires, h.wires]

/-- The operations that should be pending for a connection. -/
def pendingOf (i : Nat) : Option Conn → List Handler
  | some k => Heap.handlersOf i k.phase
  | none => []

theorem target_of {h : Handler} (hi : ofConnection i h = true) : h.target = some i := by
  cases h <;> simp [ofConnection] at hi <;> subst hi <;> rfl

theorem expected_of {s : Server} {h : Handler} (hi : ofConnection i h = true) :
    Heap.expected s h = (pendingOf i s.conns[i]?).count h := by
  unfold Heap.expected
  simp only [target_of hi]
  cases s.conns[i]? <;> rfl

theorem operations_perm {s : Server} (hb : Backs hs s) : (operations hs i).Perm (pendingOf i s.conns[i]?) := by
  rw [List.perm_iff_count]
  intro h
  unfold operations
  by_cases hi : ofConnection i h = true
  · rw [List.count_filter hi, hb.pending, expected_of hi]
  · have z : h ∉ hs.pending.filter (ofConnection i) := fun hm => hi (List.mem_filter.1 hm).2
    rw [List.count_eq_zero.2 z]
    symm
    refine List.count_eq_zero.2 fun hm => hi ?_
    revert hm
    generalize s.conns[i]? = k
    intro hm
    cases k with
    | none => cases hm
    | some k =>
      simp only [pendingOf] at hm
      revert hm
      generalize k.phase = ph
      intro hm
      cases ph <;> simp [Heap.handlersOf] at hm <;> subst hm <;> simp [ofConnection]

theorem operations_count {s : Server} (hb : Backs hs s) :
    (operations hs i).length = (sessionOwners hs i) ∧ (operations hs i).length ≤ 1 := by
  rw [(operations_perm hb).length_eq]
  unfold sessionOwners
  rw [hb.cells i]
  generalize s.conns[i]? = k
  cases k with
  | none => exact ⟨rfl, by simp [pendingOf]⟩
  | some k => cases hp : k.phase <;> simp [hp, Heap.handlersOf, Heap.sockOf, pendingOf]

/-- C84: a connection never has more than one operation pending: no two reads of one socket, no two replies interleaved on
it, no read while a reply is being written. -/
theorem C84_one_operation [PosSort] (h : hrun (HServer.init pwd (HCtx.init prec eps fileOpen quiet)) es = some (.done hs)) (i : Nat) :
    (operations hs i).length ≤ 1 := by
  obtain ⟨s, _, hb⟩ := run_backs h
  exact (operations_count hb).2

/-- C84: the owners of a session are its pending operations: it exists exactly as long as one is pending. -/
theorem C84_owners [PosSort] (h : hrun (HServer.init pwd (HCtx.init prec eps fileOpen quiet)) es = some (.done hs)) (i : Nat) :
    sessionOwners hs i = (operations hs i).length ∧ (SessionLives hs i ↔ operations hs i ≠ []) := by
  obtain ⟨s, _, hb⟩ := run_backs h
  have e := (operations_count hb (i := i)).1
  refine ⟨e.symm, ?_⟩
  rw [← List.length_pos_iff, e]
  unfold SessionLives sessionOwners
  rw [hb.cells i]
  rcases s.conns[i]? with _ | k
  · simp [Heap.sockOf]
  · by_cases hp : k.phase = .dead <;> simp [hp, Heap.sockOf]

/-- C84: when nothing is pending any more, no session is left. -/
theorem C84_all_gone [PosSort] (h : hrun (HServer.init pwd (HCtx.init prec eps fileOpen quiet)) es = some (.done hs))
    (hp : hs.pending = []) (i : Nat) : ¬ SessionLives hs i := by
  rw [(C84_owners h i).2]
  simp [operations, hp]

/-- C84: no session leaks: there are as many sessions in memory as reads and writes pending. -/
theorem C84_no_leak [PosSort] (h : hrun (HServer.init pwd (HCtx.init prec eps fileOpen quiet)) es = some (.done hs)) :
    {i | SessionLives hs i}.ncard = (hs.pending.filter (· ≠ .accept)).length := by
  obtain ⟨s, _, hb⟩ := run_backs h
  have ho := C84_owners h
  have h1 := C84_one_operation h
  -- the connections of the pending operations
  let conn : Handler → Nat := fun | .accept => 0 | .read j => j | .write j _ => j
  have hc : ∀ h, h ≠ .accept → ∀ i, ofConnection i h = true ↔ conn h = i := by
    intro h hn i
    cases h <;> simp [ofConnection, conn] at hn ⊢
  let l := (hs.pending.filter (· ≠ .accept)).map conn
  have hcount : ∀ i, l.count i = (operations hs i).length := by
    intro i
    unfold operations
    rw [List.count_eq_length_filter, List.filter_map, List.length_map, List.filter_filter]
    congr 1
    apply List.filter_congr
    intro h _
    by_cases e : h = .accept
    · subst e; simp [ofConnection]
    · have := hc h e i
      simp only [Function.comp, e, ne_eq, not_false_eq_true, decide_true, Bool.and_true]
      rw [Bool.eq_iff_iff, this]
      simp
  have hn : l.Nodup := List.nodup_iff_count_le_one.2 fun i => by rw [hcount]; exact h1 i
  have e : {i | SessionLives hs i} = (l.toFinset : Set Nat) := by
    ext i
    simp only [Set.mem_ofPred_eq, List.coe_toFinset]
    rw [(ho i).2, ← List.count_pos_iff, hcount, List.length_pos_iff]
  rw [e, Set.ncard_coe_finset, List.toFinset_card_of_nodup hn, List.length_map]

/-- C84: a session that was destroyed stays so, and nothing is written to its connection any more. -/
theorem C84_gone_for_good [PosSort] (h : hrun (HServer.init pwd (HCtx.init prec eps fileOpen quiet)) es₁ = some (.done hs))
    (hi : i < hs.wires.length) (hd : ¬ SessionLives hs i) (h' : hrun hs es₂ = some (.done hs')) :
    ¬ SessionLives hs' i ∧ hs'.wires[i]? = hs.wires[i]? := by
  obtain ⟨s, _, hb⟩ := run_backs h
  have h2 := run_sim hb es₂
  rw [h'] at h2
  have hi' : i < s.conns.length := by rw [hb.wires] at hi; simpa using hi
  have hk : s.conns[i]? = some s.conns[i] := List.getElem?_eq_getElem hi'
  have hp : s.conns[i].phase = .dead := by
    by_contra hp
    apply hd
    unfold SessionLives
    rw [hb.cells, hk]
    simp only [Heap.sockOf, hp, if_false]
    exact ⟨_, _, rfl⟩
  have : ∃ s', @Knuckle.run Heap.stdSortOf s es₂ = some (.done s') ∧ Backs hs' s' := by
    revert h2
    generalize @Knuckle.run Heap.stdSortOf s es₂ = y
    intro h2
    match y, h2 with
    | some (.done y), h2 => exact ⟨y, rfl, h2⟩
  obtain ⟨s', hy, hb'⟩ := this
  letI := Heap.stdSortOf
  have hk' := dead_run hk hp hy
  constructor
  · rintro ⟨c, n, e⟩
    rw [hb'.cells, hk'] at e
    simp [Heap.sockOf, hp] at e
  · rw [hb'.wires, hb.wires]
    simp [hk, hk']

theorem hrun_first [PosSort] (h : hrun hs es = some .ub) :
    ∃ es₁ e es₂ hs', es = es₁ ++ e :: es₂ ∧ hrun hs es₁ = some (.done hs') ∧ hstep hs' e = some .ub := by
  induction es generalizing hs with
  | nil => cases h
  | cons e es ih =>
    simp only [hrun] at h
    split at h
    · cases h
    · rename_i he; exact ⟨[], e, es, hs, rfl, rfl, he⟩
    · rename_i s' he
      obtain ⟨es₁, e', es₂, srv, rfl, k1, k2⟩ := ih h
      exact ⟨e :: es₁, e', es₂, srv, rfl, by simp only [hrun, he]; exact k1, k2⟩

/-- The causes of undefined behaviour in the server on values. -/
theorem step_ub [StdSort] {c : Ctx} {s : Server} {e : Event} (hc : Reachable c) (hr : run (Server.init pwd c) es = some (.done s))
    (hu : step s e = some .ub) :
    (∃ i k r, e = .wroteShort i ∧ s.conns[i]? = some k ∧ k.phase = .writing r) ∨
    ∃ i k line rest, e = .read i ∧ s.conns[i]? = some k ∧ k.phase = .reading ∧ splitLine k.inbuf = some (line, rest) ∧
      execute s.pwd s.ctx (some k.sess) line = .ub := by
  obtain ⟨log, h3⟩ := C44_serialized hc hr
  cases e with
  | read i =>
    simp only [step] at hu
    split at hu
    · rename_i k hk
      split at hu
      · rename_i hp
        split at hu
        · rename_i line rest hl
          refine .inr ⟨i, k, line, rest, rfl, hk, hp, hl, ?_⟩
          rcases handleLine_cases s i k line rest _ rfl (reachable_inv (serial_reachable hc h3.serial)) with
            ⟨_, _, g3⟩ | ⟨g1, g2, g3⟩ | ⟨_, c', t, r, _, g3⟩
          · rw [g3] at hu; cases hu
          · exact g2
          · rw [g3] at hu; cases hu
        · cases hu
      · cases hu
    · cases hu
  | wroteShort i =>
    simp only [step] at hu
    split at hu
    · rename_i k hk
      split at hu
      · rename_i r hp
        exact .inl ⟨i, k, r, rfl, hk, hp⟩
      · cases hu
    · cases hu
  | accept => simp only [step] at hu; split at hu <;> cases hu
  | acceptErr => simp only [step] at hu; split at hu <;> cases hu
  | recv i b => simp only [step] at hu; split at hu <;> [(split at hu <;> cases hu); cases hu]
  | readErr i => simp only [step] at hu; split at hu <;> [(split at hu <;> cases hu); cases hu]
  | wrote i => simp only [step] at hu; split at hu <;> [(split at hu <;> [(split at hu <;> cases hu); cases hu]); cases hu]
  | writeErr i => simp only [step] at hu; split at hu <;> [(split at hu <;> cases hu); cases hu]

/-- C84: no session is used after it was destroyed: undefined behaviour has other causes, a reply that the kernel takes only
partly or a request that has no defined result. -/
theorem C84_no_use_after_destruction [PosSort] (he : eps.toF32 = eps)
    (h : hrun (HServer.init pwd (HCtx.init prec eps fileOpen quiet)) es = some .ub) :
    ∃ es₁ e es₂ hs, es = es₁ ++ e :: es₂ ∧ hrun (HServer.init pwd (HCtx.init prec eps fileOpen quiet)) es₁ = some (.done hs) ∧
      ((∃ i, e = .wroteShort i ∧ operations hs i ≠ []) ∨
       ∃ i c n line rest ctx q, e = .read i ∧ hs.socks.cells i = some (c, n) ∧ splitLine c.inbuf = some (line, rest) ∧
         @History Heap.stdSortOf (Ctx.init prec eps fileOpen quiet) q ctx ∧ UndefinedCause ctx (some c.sess) line) := by
  obtain ⟨es₁, e, es₂, hs, rfl, h1, h2⟩ := hrun_first h
  refine ⟨es₁, e, es₂, hs, rfl, h1, ?_⟩
  obtain ⟨s, hr, hb⟩ := run_backs h1
  have hsim := Heap.step_sim hb e
  rw [h2] at hsim
  have hu : @Knuckle.step Heap.stdSortOf s e = some .ub := by
    revert hsim
    generalize @Knuckle.step Heap.stdSortOf s e = y
    intro hsim
    match y, hsim with
    | some .ub, _ => rfl
  letI := Heap.stdSortOf
  have hc : Reachable (Ctx.init prec eps fileOpen quiet) := .init prec eps fileOpen quiet he
  rcases step_ub hc hr hu with ⟨i, k, r, rfl, hk, hp⟩ | ⟨i, k, line, rest, rfl, hk, hp, hl, hx⟩
  · refine .inl ⟨i, rfl, fun hn => ?_⟩
    have := (operations_perm hb (i := i)).length_eq
    rw [hn, hk] at this
    simp [pendingOf, hp, Heap.handlersOf] at this
  · obtain ⟨log, hlog⟩ := C44_serialized hc hr
    obtain ⟨q, hq, _⟩ := serial_history hlog.serial
    refine .inr ⟨i, ⟨k.sess, k.inbuf⟩, 1, line, rest, s.ctx, q, rfl, ?_, hl, hq, ?_⟩
    · rw [hb.cells, hk]
      simp [Heap.sockOf, hp]
    · exact C39_only_known_causes (serial_reachable hc hlog.serial) hx

/-- C82: in the running server, too, no two pointers lead to the same instance and every pointer leads to an instance whose
count is right. -/
theorem C82_server [PosSort] (h : hrun (HServer.init pwd (HCtx.init prec eps fileOpen quiet)) es = some (.done hs)) :
    (pointers hs.ctx).Nodup ∧ ∀ a ∈ pointers hs.ctx, ∃ c, hs.ctx.mem.cells a = some (c, 1) := by
  obtain ⟨s, _, hb⟩ := run_backs h
  exact one_owner_of hb.ctx

/-- C83: in the running server, too, every instance in memory is that of a variable or an element of one, whatever clients
connect, send and disconnect. -/
theorem C83_server [PosSort] (h : hrun (HServer.init pwd (HCtx.init prec eps fileOpen quiet)) es = some (.done hs)) (a : Heap.Addr) :
    Live hs.ctx a ↔ a ∈ pointers hs.ctx := by
  obtain ⟨s, _, hb⟩ := run_backs h
  exact no_leak_of hb.ctx a

/-! ### Example -/

/-- The history of `demoEvents`, after which the second client closes its connection, a third connects and disconnects. -/
def sessionEvents : List Event := demoEvents ++ [.recv 1 b!"Connection close;\n", .read 1, .accept, .readErr 2]

/-- The pending operations, the `Session` objects at the addresses used so far, and the bytes written. -/
def sessionView (s : HServer) : List Handler × List (Option (Heap.Sock × Nat)) × List Str :=
  (s.pending, (List.range s.socks.next).map s.socks.cells, s.wires)

/-- C84: two sessions are gone, one is alive and owned by the write that is pending. -/
theorem session_demo : ∃ hs, @hrun insertionPosSort (HServer.init b!"pw" (HCtx.init 3 (.fin false 0) false true)) sessionEvents = some (.done hs) ∧
    sessionView hs = ([.write 0 b!"42", .accept], [some (⟨⟨true, true⟩, b!"half"⟩, 1), none, none],
      [b!"AuthenticationError: not authenticated.\nnull\n", b!"null\nnull\n", []]) := by
  have e : (match @hrun insertionPosSort (HServer.init b!"pw" (HCtx.init 3 (.fin false 0) false true)) sessionEvents with
      | some (.done hs) => some (sessionView hs)
      | _ => none) = some ([.write 0 b!"42", .accept], [some (⟨⟨true, true⟩, b!"half"⟩, 1), none, none],
      [b!"AuthenticationError: not authenticated.\nnull\n", b!"null\nnull\n", []]) := by kernel_rfl
  revert e
  generalize @hrun insertionPosSort _ sessionEvents = x
  intro e
  match x, e with
  | some (.done hs), e => exact ⟨hs, rfl, by simpa using e⟩

example : ∃ hs, @hrun insertionPosSort (HServer.init b!"pw" (HCtx.init 3 (.fin false 0) false true)) sessionEvents = some (.done hs) ∧
    {i | SessionLives hs i}.ncard = 1 ∧ operations hs 0 = [.write 0 b!"42"] ∧ ¬ SessionLives hs 1 ∧ 1 < hs.wires.length := by
  letI := insertionPosSort
  obtain ⟨hs, h, e⟩ := session_demo
  simp only [sessionView, Prod.mk.injEq] at e
  have e1 : operations hs 1 = [] := by unfold operations; rw [e.1]; decide +kernel
  refine ⟨hs, h, ?_, ?_, ?_, ?_⟩
  · rw [C84_no_leak h, e.1]; decide +kernel
  · unfold operations; rw [e.1]; decide +kernel
  · rw [(C84_owners h 1).2, e1]; simp
  · rw [e.2.2]; decide

/-- C84: undefined behaviour of either kind can happen. -/
example : @hrun insertionPosSort (HServer.init [] (HCtx.init 3 (.fin false 0) false true))
    [.accept, .recv 0 b!"Integer create: i withValue: 2147483648;\n", .read 0] = some .ub := by
  have e : (match @hrun insertionPosSort (HServer.init [] (HCtx.init 3 (.fin false 0) false true))
    [.accept, .recv 0 b!"Integer create: i withValue: 2147483648;\n", .read 0] with
      | some .ub => true
      | _ => false) = true := by decide +kernel
  revert e
  generalize @hrun insertionPosSort _ _ = x
  intro e
  match x, e with
  | some .ub, _ => rfl

end Knuckle.Props
