/-
C108: what is read from a counter, and barriers.

`Serial pwd c log c'` is what C44 provides for every schedule of the server.
-/
import Verif.Props.Reads
import Verif.Spec.Barrier
import Verif.Props.Schedules
import Mathlib.Data.Finset.Card

namespace Knuckle.Props

open Spec

variable {pwd : Str} {c c' : Ctx} {n : Str} {l l' l1 l2 l3 : List Request} {q q1 q2 : Request} {ops : List (Str × List Str × Str)}

/-- C108: `get` of an integer to which clients only add (and from which they only subtract) answers what it was and everything that
was added by the requests executed before, by whomever. -/
theorem C108_counter_read [StdSort] {v d : Int} (hc : Reachable c) (hn : Holds c n (.integer v)) (h : Serial pwd c (l ++ q :: l') c')
    (ha : Authenticated pwd l q.conn) (ho : UpdatesOf n l ops) (hd : CounterOps ops d) (hq : Statement q.line n b!"get" []) :
    q.reply = intStr (v + d) := by
  obtain ⟨x, s, hx, hr⟩ := read_at h ha
  exact hr _ (scalar_get (o := .integer (v + d)) (serial_reachable hc hx) (C67_counter hc hn hx ho hd) hq)

/-- What is arrived, as the counter's messages: there are as many as clients that have arrived. -/
theorem barrier_ops (hb : UsedAsBarrier n l) (hone : ArriveOnce n l) :
    ∃ ops P, UpdatesOf n l ops ∧ CounterOps ops (P : Finset Nat).card ∧ ∀ i, i ∈ P ↔ Arrived n l i := by
  induction l with
  | nil => exact ⟨[], ∅, .nil, .nil, fun i => by simp [Arrived]⟩
  | cons q l ih =>
    obtain ⟨ops, P, h1, h2, h3⟩ := ih (fun x hx => hb x (by simp [hx])) (List.pairwise_cons.1 hone).2
    by_cases ha : q.accepted
    · obtain ⟨hd, hm⟩ := hb q (by simp) ha
      by_cases har : Arrives q.line n
      · obtain ⟨a, hl, hst⟩ := har
        have hnew : q.conn ∉ P := by
          rw [h3]
          rintro ⟨x, hx, e, hxa, hxr⟩
          exact (List.pairwise_cons.1 hone).1 x hx ha hxa ⟨a, hl, hst⟩ hxr e.symm
        refine ⟨_, insert q.conn P, .update hst (by decide) ha h1, ?_, fun i => ?_⟩
        · rw [Finset.card_insert_of_notMem hnew]
          have := CounterOps.add (r := q.reply) hl h2
          rwa [show ((P.card + 1 : Nat) : Int) = 1 + P.card by push_cast; omega]
        · rw [Finset.mem_insert, h3]
          constructor
          · rintro (rfl | ⟨x, hx, hr⟩)
            · exact ⟨q, by simp, rfl, ha, a, hl, hst⟩
            · exact ⟨x, by simp [hx], hr⟩
          · rintro ⟨x, hx, e, hr⟩
            rcases List.mem_cons.1 hx with rfl | hx
            · exact .inl e.symm
            · exact .inr ⟨x, hx, e, hr⟩
      · refine ⟨ops, P, .other (.inr ?_) h1, h2, fun i => ?_⟩
        · by_cases hcon : Concerns q.line n
          · cases hcon with
            | @message name args hst => exact .inl ⟨name, args, hst, (hm name args hst).resolve_right har⟩
            | delete hst => exact absurd (.delete hst) hd
            | deleteNamespace hst hns => exact absurd (.deleteNamespace hst hns) hd
          · exact .inr hcon
        · rw [h3]
          constructor
          · rintro ⟨x, hx, hr⟩; exact ⟨x, by simp [hx], hr⟩
          · rintro ⟨x, hx, e, hxa, hxr⟩
            rcases List.mem_cons.1 hx with rfl | hx
            · exact absurd hxr har
            · exact ⟨x, hx, e, hxa, hxr⟩
    · refine ⟨ops, P, .other (.inl ha) h1, h2, fun i => ?_⟩
      rw [h3]
      constructor
      · rintro ⟨x, hx, hr⟩; exact ⟨x, by simp [hx], hr⟩
      · rintro ⟨x, hx, e, hxa, hxr⟩
        rcases List.mem_cons.1 hx with rfl | hx
        · exact absurd hxa ha
        · exact ⟨x, hx, e, hxa, hxr⟩

/-- C108: barriers: an integer that was 0 and to which each client adds 1 at most once. If a client reads the number of a set `P` of clients, to
which all that ever add belong, then all of `P` have added before; and whoever reads after all of `P` have, reads that number. -/
theorem C108_barrier [StdSort] (P : Finset Nat) (hc : Reachable c) (hn : Holds c n (.integer 0)) (h : Serial pwd c (l ++ q :: l') c')
    (ha : Authenticated pwd l q.conn) (hb : UsedAsBarrier n l) (hone : ArriveOnce n l) (hP : ∀ i, Arrived n l i → i ∈ P)
    (hq : Statement q.line n b!"get" []) : q.reply = intStr P.card ↔ ∀ i ∈ P, Arrived n l i := by
  obtain ⟨ops, Q, h1, h2, h3⟩ := barrier_ops hb hone
  rw [C108_counter_read hc hn h ha h1 h2 hq, zero_add]
  have hsub : Q ⊆ P := fun i hi => hP i ((h3 i).1 hi)
  constructor
  · intro e i hi
    have : (Q.card : Int) = P.card := intStr_inj _ _ e
    rw [← h3, Finset.eq_of_subset_of_card_le hsub (by omega)]
    exact hi
  · intro hall
    rw [show Q = P from Finset.Subset.antisymm hsub fun i hi => (h3 i).2 (hall i hi)]

theorem counted_up_ops (hu : CountedUp n l) : ∃ ops d, UpdatesOf n l ops ∧ CounterOps ops d ∧ 0 ≤ d := by
  induction l with
  | nil => exact ⟨[], 0, .nil, .nil, le_refl _⟩
  | cons q l ih =>
    obtain ⟨ops, d, h1, h2, h3⟩ := ih fun x hx => hu x (by simp [hx])
    by_cases ha : q.accepted
    · obtain ⟨hd, hm⟩ := hu q (by simp) ha
      by_cases hcon : Concerns q.line n
      · cases hcon with
        | @message name args hst =>
          rcases hm name args hst with hq | ⟨a, k, rfl, rfl, hl, hk⟩
          · exact ⟨ops, d, .other (.inr (.inl ⟨name, args, hst, hq⟩)) h1, h2, h3⟩
          · exact ⟨_, _, .update hst (by decide) ha h1, .add hl h2, by omega⟩
        | delete hst => exact absurd (.delete hst) hd
        | deleteNamespace hst hns => exact absurd (.deleteNamespace hst hns) hd
      · exact ⟨ops, d, .other (.inr (.inr hcon)) h1, h2, h3⟩
    · exact ⟨ops, d, .other (.inl ha) h1, h2, h3⟩

theorem updatesOf_append {ops' : List (Str × List Str × Str)} (h : UpdatesOf n l ops) (h' : UpdatesOf n l' ops') : UpdatesOf n (l ++ l') (ops ++ ops') := by
  induction h with
  | nil => exact h'
  | update a b d _ ih => exact .update a b d ih
  | other a _ ih => exact .other a ih

theorem counterOps_append {ops' : List (Str × List Str × Str)} {d d' : Int} (h : CounterOps ops d) (h' : CounterOps ops' d') :
    CounterOps (ops ++ ops') (d + d') := by
  induction h with
  | nil => rw [zero_add]; exact h'
  | add a _ ih => rw [add_assoc]; exact .add a ih
  | subtract a _ ih => rw [add_assoc]; exact .subtract a ih

/-- C108: an addition by an authenticated client to an integer that is only counted up is accepted, and answered with `null`. -/
theorem C108_additions_are_accepted [StdSort] {v k : Int} {a : Str} (hc : Reachable c) (hn : Holds c n (.integer v))
    (h : Serial pwd c (l ++ q :: l') c') (hu : CountedUp n l) (ha : Authenticated pwd l q.conn) (hq : Statement q.line n b!"add:" [a])
    (hk : IntLiteral a k) (hr : IsInt32 k) : q.accepted ∧ q.reply = b!"null" := by
  suffices q.reply = b!"null" from ⟨by unfold Request.accepted; rw [this]; decide, this⟩
  obtain ⟨x, hx⟩ := serial_prefix (l1 := l ++ [q]) (l2 := l') (by simpa using h)
  obtain ⟨d, hd, _, ⟨s, s', _, _, h3⟩ | ⟨h1, _⟩⟩ := serial_snoc hx
  · obtain ⟨ops, e, h4, h5, _⟩ := counted_up_ops hu
    have h6 := answers_int (pwd := pwd) (s := some s) (serial_reachable hc hd) (C67_counter hc hn hd h4 h5) hq (.add (.int hk hr))
    simp only [intMeaning, exactly] at h6
    split at h6
    · obtain ⟨y, h7, _⟩ := h6
      unfold Replies at h7
      rw [h3] at h7
      exact (Prod.mk.inj (Prod.mk.inj (Outcome.done.inj h7)).2).2
    · have h6 : execute pwd d (some s) q.line = .ub := h6
      rw [h3] at h6; cases h6
  · exact absurd ha h1

/-- C108: if the clients only count up, what is read from the integer never decreases, whoever reads. -/
theorem C108_never_decreases [StdSort] {v : Int} (hc : Reachable c) (hn : Holds c n (.integer v))
    (h : Serial pwd c (l1 ++ q1 :: (l2 ++ q2 :: l3)) c') (hu : CountedUp n (l1 ++ q1 :: l2))
    (a1 : Authenticated pwd l1 q1.conn) (a2 : Authenticated pwd (l1 ++ q1 :: l2) q2.conn)
    (g1 : Statement q1.line n b!"get" []) (g2 : Statement q2.line n b!"get" []) :
    ∃ x y : Int, q1.reply = intStr x ∧ q2.reply = intStr y ∧ v ≤ x ∧ x ≤ y := by
  obtain ⟨ops1, d1, h1, h2, h3⟩ := counted_up_ops (l := l1) fun x hx => hu x (by simp [hx])
  obtain ⟨ops2, d2, h4, h5, h6⟩ := counted_up_ops (l := q1 :: l2) fun x hx => hu x (List.mem_append_right _ hx)
  refine ⟨v + d1, v + (d1 + d2), C108_counter_read hc hn h a1 h1 h2 g1,
    C108_counter_read (l := l1 ++ q1 :: l2) hc hn (by simpa using h) a2 (updatesOf_append h1 h4) (counterOps_append h2 h5) g2, by omega, by omega⟩

/-- C108: for every schedule of the server. -/
theorem C108_server [StdSort] {es : List Event} {s : Server} (hc : Reachable c) (h : run (Server.init pwd c) es = some (.done s)) :
    ∃ log, Explains pwd c es s log ∧ ∀ n l q l', log = l ++ q :: l' → Authenticated pwd l q.conn → Statement q.line n b!"get" [] →
      (∀ v d ops, Holds c n (.integer v) → UpdatesOf n l ops → CounterOps ops d → q.reply = intStr (v + d)) ∧
      (∀ P : Finset Nat, Holds c n (.integer 0) → UsedAsBarrier n l → ArriveOnce n l → (∀ i, Arrived n l i → i ∈ P) →
        (q.reply = intStr P.card ↔ ∀ i ∈ P, Arrived n l i)) := by
  obtain ⟨log, hl⟩ := C44_serialized hc h
  refine ⟨log, hl, ?_⟩
  rintro n l q l' rfl ha hq
  exact ⟨fun v d ops hn ho hd => C108_counter_read hc hn hl.serial ha ho hd hq,
    fun P hn hb hone hP => C108_barrier P hc hn hl.serial ha hb hone hP hq⟩

/-! ### A case: clients 0 and 1 meet -/

def barrierStart : Ctx := { fresh with vars := [(b!"b", .integer 0)] }
theorem barrierStart_reachable [StdSort] : Reachable barrierStart :=
  after_reachable (pwd := []) (s := none) (ts := [b!"Integer create: b withValue: 0;"]) fresh_reachable (by kernel_rfl)

def barrierLog : List Request :=
  [⟨0, b!"b add: 1;", b!"null"⟩, ⟨0, b!"b get;", b!"1"⟩, ⟨1, b!"b add: 1;", b!"null"⟩, ⟨0, b!"b get;", b!"2"⟩]

theorem barrier_serial [StdSort] : Serial [] barrierStart barrierLog { fresh with vars := [(b!"b", .integer 2)] } :=
  serially_serial (ls := [(0, b!"b add: 1;"), (0, b!"b get;"), (1, b!"b add: 1;"), (0, b!"b get;")]) .nil (by simp) (by kernel_rfl)

theorem barrier_arrives : Arrives b!"b add: 1;" b!"b" := ⟨b!"1", intStr_literal 1, reads (by decide +kernel)⟩
theorem barrier_get : Statement b!"b get;" b!"b" b!"get" [] := reads (by decide +kernel)
theorem barrier_not_arrives : ¬ Arrives b!"b get;" b!"b" := fun ⟨_, _, h⟩ => absurd (statement_unique h barrier_get).2.1 (by decide)

theorem barrier_used : UsedAsBarrier b!"b" barrierLog ∧ CountedUp b!"b" barrierLog := by
  have hadd : Statement b!"b add: 1;" b!"b" b!"add:" [b!"1"] := reads (by decide +kernel)
  have nd : ∀ {t m a}, Statement t b!"b" m a → ¬ Deletes t b!"b" := by
    intro t m a h hd
    cases hd with
    | delete h' => exact absurd (statement_unique h h').1 (by decide)
    | deleteNamespace h' _ => exact absurd (statement_unique h h').1 (by decide)
  constructor <;> intro q hq _ <;> simp only [barrierLog, List.mem_cons, List.not_mem_nil, or_false] at hq <;>
    rcases hq with rfl | rfl | rfl | rfl
  · exact ⟨nd hadd, fun _ _ _ => .inr barrier_arrives⟩
  · exact ⟨nd barrier_get, fun _ _ h => .inl (by rw [(statement_unique h barrier_get).2.1]; decide)⟩
  · exact ⟨nd hadd, fun _ _ _ => .inr barrier_arrives⟩
  · exact ⟨nd barrier_get, fun _ _ h => .inl (by rw [(statement_unique h barrier_get).2.1]; decide)⟩
  · exact ⟨nd hadd, fun _ _ h => .inr ⟨b!"1", 1, (statement_unique h hadd).2.1, (statement_unique h hadd).2.2, intStr_literal 1, by decide⟩⟩
  · exact ⟨nd barrier_get, fun _ _ h => .inl (by rw [(statement_unique h barrier_get).2.1]; decide)⟩
  · exact ⟨nd hadd, fun _ _ h => .inr ⟨b!"1", 1, (statement_unique h hadd).2.1, (statement_unique h hadd).2.2, intStr_literal 1, by decide⟩⟩
  · exact ⟨nd barrier_get, fun _ _ h => .inl (by rw [(statement_unique h barrier_get).2.1]; decide)⟩

theorem barrier_once : ArriveOnce b!"b" barrierLog := by
  simp only [ArriveOnce, barrierLog, List.pairwise_cons, List.mem_cons, List.not_mem_nil, or_false, forall_eq_or_imp, forall_eq]
  exact ⟨⟨fun _ _ _ h => absurd h barrier_not_arrives, fun _ _ _ _ => by decide, fun _ _ _ h => absurd h barrier_not_arrives⟩,
    ⟨fun _ _ h _ => absurd h barrier_not_arrives, fun _ _ h _ => absurd h barrier_not_arrives⟩, fun _ _ _ h => absurd h barrier_not_arrives,
    by simp⟩

/-- Client 0 reads 2, so both have arrived. -/
example [StdSort] : ∀ i ∈ ({0, 1} : Finset Nat), Arrived b!"b" (barrierLog.take 3) i :=
  (C108_barrier (n := b!"b") {0, 1} (l := barrierLog.take 3) (q := barrierLog[3]) (l' := []) barrierStart_reachable (by decide +kernel) barrier_serial (.inl rfl)
    (fun x hx => barrier_used.1 x (List.mem_of_mem_take hx)) (List.Pairwise.sublist (List.take_sublist _ _) barrier_once)
    (by rintro i ⟨x, hx, rfl, _⟩
        simp only [barrierLog, List.take, List.mem_cons, List.not_mem_nil, or_false] at hx
        rcases hx with rfl | rfl | rfl <;> decide) barrier_get).1 (by decide +kernel)

example [StdSort] := C108_never_decreases (l1 := barrierLog.take 1) (q1 := barrierLog[1]) (l2 := [barrierLog[2]]) (q2 := barrierLog[3]) (l3 := [])
  (n := b!"b") (v := 0) barrierStart_reachable (by decide +kernel) barrier_serial (fun x hx => barrier_used.2 x (List.mem_of_mem_take (i := 3) hx))
  (.inl rfl) (.inl rfl) barrier_get barrier_get

example [StdSort] := C108_additions_are_accepted (l := barrierLog.take 2) (q := barrierLog[2]) (l' := barrierLog.drop 3)
  (n := b!"b") (v := 0) (k := 1) (a := b!"1") barrierStart_reachable (by decide +kernel) barrier_serial
  (fun x hx => barrier_used.2 x (List.mem_of_mem_take hx)) (.inl rfl) (reads (by decide +kernel)) (intStr_literal 1) (by decide)

end Knuckle.Props
