/-
C109: a vector to which clients only append is a log of events that every reader sees in the same order, without gaps.

`Serial pwd c log c'` is what C44 provides for every schedule of the server.
-/
import Verif.Props.Reads
import Verif.Spec.Topic
import Verif.Props.Schedules

namespace Knuckle.Props

open Spec

variable {pwd : Str} {c c' : Ctx} {n t a : Str} {l l' l1 l2 l3 log : List Request} {q q1 q2 : Request} {l₀ os os1 os2 : List Obj}

theorem vec_push {cfg : Cfg} {i : Inst} {r : Str} {args : List Str} (h : Behaves cfg (.vector t l₀) b!"pushBack:" args (.gives i r)) :
    ∃ a o, args = [a] ∧ Denotes t a o ∧ i = .vector t (l₀ ++ [o]) ∧ r = b!"null" := by
  generalize hx : Result.gives i r = x at h
  generalize hn : b!"pushBack:" = name at h
  cases h with
  | @vector _ _ _ _ m hm =>
    obtain ⟨w, e, rfl⟩ := map_gives hx.symm
    cases hm <;> first | exact absurd hn (by decide) | skip
    rename_i a o ho
    cases e
    exact ⟨a, o, rfl, ho, rfl, rfl⟩
  | _ => exact absurd hn (by decide)

theorem posted_append {l' : List Request} {os' : List Obj} (h : Posted n t l os) (h' : Posted n t l' os') : Posted n t (l ++ l') (os ++ os') := by
  induction h with
  | nil => exact h'
  | post a b d _ ih => exact .post a b d ih
  | other a _ ih => exact .other a ih

/-- C109: what the vector holds: what it held, followed by everything that was appended by the accepted requests of all clients, in order. -/
theorem C109_holds [StdSort] (hc : Reachable c) (hn : Holds c n (.vector t l₀)) (h : Serial pwd c log c') (hp : Posted n t log os) :
    Holds c' n (.vector t (l₀ ++ os)) := by
  obtain ⟨ops, h1, h2⟩ : ∃ ops, UpdatesOf n log ops ∧ ∀ l i, Chain (.vector t l) ops i → i = .vector t (l ++ os) := by
    clear h
    induction hp with
    | nil => exact ⟨[], .nil, fun l i h => by cases h; simp⟩
    | post hs hd ha _ ih =>
      obtain ⟨ops, h1, h2⟩ := ih
      refine ⟨_, .update hs (by decide) ha h1, fun l i h => ?_⟩
      cases h with
      | cons _ hb _ hch =>
        obtain ⟨a', o', e, hd', rfl, _⟩ := vec_push hb
        cases e
        rw [h2 _ _ hch, denotes_unique hd hd']
        simp
    | other ho _ ih =>
      obtain ⟨ops, h1, h2⟩ := ih
      exact ⟨ops, .other ho h1, h2⟩
  obtain ⟨_, i, hi, hch⟩ := updates_chain hc hn (serial_updates h h1)
  rw [← h2 _ _ hch]; exact hi

/-- C109: if the accepted messages to a vector are only `pushBack:` and questions, each `pushBack:` appends one value. -/
theorem C109_posted [StdSort] (hc : Reachable c) (hn : Holds c n (.vector t l₀)) (h : Serial pwd c log c') (hu : OnlyPosts n log) :
    ∃ os, Posted n t log os := by
  induction log using List.reverseRecOn generalizing c' with
  | nil => exact ⟨[], .nil⟩
  | append_singleton l q ih =>
    obtain ⟨d, hd, _, hq⟩ := serial_snoc h
    obtain ⟨os, hp⟩ := ih hd fun x hx => hu x (List.mem_append_left _ hx)
    have key : ∀ {os'}, Posted n t [q] os' → ∃ os, Posted n t (l ++ [q]) os := fun h' => ⟨_, posted_append hp h'⟩
    by_cases ha : q.accepted
    · obtain ⟨h1, h2⟩ := hu q (by simp) ha
      by_cases hcon : Concerns q.line n
      · cases hcon with
        | @message name args hst =>
          rcases h2 name args hst with hqu | rfl
          · exact key (.other (.inr (.inl ⟨name, args, hst, hqu⟩)) .nil)
          · rcases hq with ⟨s, s', _, _, he⟩ | ⟨_, _, h3, _⟩
            · obtain ⟨i, hb, _⟩ := accepted_behaves (serial_reachable hc hd) (C109_holds hc hn hd hp) hst he ha
              obtain ⟨a, o, rfl, h4, _⟩ := vec_push hb
              exact key (.post hst h4 ha .nil)
            · exact absurd (by rw [h3]; decide) ha
        | delete hst => exact absurd (.delete hst) h1
        | deleteNamespace hst hns => exact absurd (.deleteNamespace hst hns) h1
      · exact key (.other (.inr (.inr hcon)) .nil)
    · exact key (.other (.inl ha) .nil)

/-- C109: an authenticated client's `pushBack:` of a literal of the type of the elements is accepted and answered with `null`. -/
theorem C109_posts_are_accepted [StdSort] {o : Obj} (hc : Reachable c) (hn : Holds c n (.vector t l₀)) (h : Serial pwd c (l ++ q :: l') c')
    (hu : OnlyPosts n l) (ha : Authenticated pwd l q.conn) (hq : Statement q.line n b!"pushBack:" [a]) (ho : Denotes t a o) :
    q.accepted ∧ q.reply = b!"null" := by
  suffices q.reply = b!"null" from ⟨by unfold Request.accepted; rw [this]; decide, this⟩
  obtain ⟨x, hx⟩ := serial_prefix (l1 := l ++ [q]) (l2 := l') (by simpa using h)
  obtain ⟨d, hd, _, ⟨s, s', _, _, h3⟩ | ⟨h1, _⟩⟩ := serial_snoc hx
  · obtain ⟨os, hp⟩ := C109_posted hc hn hd hu
    obtain ⟨y, h7, _⟩ := answers_vec (pwd := pwd) (s := some s) (serial_reachable hc hd) (C109_holds hc hn hd hp) hq (.pushBack ho)
    unfold Replies at h7
    rw [h3] at h7
    exact (Prod.mk.inj (Prod.mk.inj (Outcome.done.inj h7)).2).2
  · exact absurd ha h1

/-- What a question about the vector answers. -/
theorem topic_read [StdSort] {name r : Str} {args : List Str} {m : VecMsg} (hc : Reachable c) (hn : Holds c n (.vector t l₀))
    (h : Serial pwd c (l ++ q :: l') c') (ha : Authenticated pwd l q.conn) (hp : Posted n t l os) (hq : Statement q.line n name args)
    (hm : VecSays t name args m) :
    ∃ d, Serial pwd c l d ∧ (vecMeaning d.cfg (l₀ ++ os) m = .gives (l₀ ++ os) r → q.reply = r) := by
  obtain ⟨d, s, hd, hr⟩ := read_at h ha
  refine ⟨d, hd, fun e => hr _ ?_⟩
  have h1 := C109_holds hc hn hd hp
  have h2 := answers_vec (pwd := pwd) (s := s) (serial_reachable hc hd) h1 hq hm
  rw [e] at h2
  exact justReplies_of (serial_reachable hc hd) h1 h2

/-- C109: `get` answers all of the log. -/
theorem C109_get [StdSort] (hc : Reachable c) (hn : Holds c n (.vector t l₀)) (h : Serial pwd c (l ++ q :: l') c')
    (ha : Authenticated pwd l q.conn) (hp : Posted n t l os) (hq : Statement q.line n b!"get" []) :
    ∃ d, Serial pwd c l d ∧ q.reply = vectorText d.cfg.prec (l₀ ++ os) := by
  obtain ⟨d, s, hd, hr⟩ := read_at h ha
  have h1 := C109_holds hc hn hd hp
  exact ⟨d, hd, hr _ (justReplies_of (serial_reachable hc hd) h1 (answers_vec (serial_reachable hc hd) h1 hq .get))⟩

/-- C109: `size` answers the number of events. -/
theorem C109_size [StdSort] (hc : Reachable c) (hn : Holds c n (.vector t l₀)) (h : Serial pwd c (l ++ q :: l') c')
    (ha : Authenticated pwd l q.conn) (hp : Posted n t l os) (hq : Statement q.line n b!"size" []) :
    q.reply = intStr (l₀ ++ os).length := by
  obtain ⟨d, s, hd, hr⟩ := read_at h ha
  have h1 := C109_holds hc hn hd hp
  exact hr _ (justReplies_of (serial_reachable hc hd) h1 (answers_vec (serial_reachable hc hd) h1 hq .size))

/-- C109: `atIndex:` answers the event of that number, whenever it is asked: events keep their numbers. -/
theorem C109_entry [StdSort] {k : Nat} {o : Obj} (hc : Reachable c) (hn : Holds c n (.vector t l₀)) (h : Serial pwd c (l ++ q :: l') c')
    (ha : Authenticated pwd l q.conn) (hp : Posted n t l os) (hq : Statement q.line n b!"atIndex:" [a])
    (hk : Denotes b!"Integer" a (.integer k)) (ho : (l₀ ++ os)[k]? = some o) :
    ∃ d, Serial pwd c l d ∧ q.reply = o.repr d.cfg.prec := by
  obtain ⟨d, s, hd, hr⟩ := read_at h ha
  have h1 := C109_holds hc hn hd hp
  obtain ⟨h2, h3⟩ := List.getElem?_eq_some_iff.1 ho
  have h4 := answers_vec (pwd := pwd) (s := s) (serial_reachable hc hd) h1 hq (.atIndex hk)
  rw [show vecMeaning d.cfg (l₀ ++ os) (.atIndex k) = .gives (l₀ ++ os) (o.repr d.cfg.prec) by
    simp only [vecMeaning]
    rw [dif_pos ⟨by omega, by omega⟩]
    congr 2] at h4
  exact ⟨d, hd, hr _ (justReplies_of (serial_reachable hc hd) h1 h4)⟩

/-- C109: `sliceFromIndex:` answers the events from that number on. -/
theorem C109_from [StdSort] {k : Nat} (hc : Reachable c) (hn : Holds c n (.vector t l₀)) (h : Serial pwd c (l ++ q :: l') c')
    (ha : Authenticated pwd l q.conn) (hp : Posted n t l os) (hq : Statement q.line n b!"sliceFromIndex:" [a])
    (hk : Denotes b!"Integer" a (.integer k)) (hle : k ≤ (l₀ ++ os).length) :
    ∃ d, Serial pwd c l d ∧ q.reply = vectorText d.cfg.prec ((l₀ ++ os).drop k) := by
  obtain ⟨d, s, hd, hr⟩ := read_at h ha
  have h1 := C109_holds hc hn hd hp
  have h4 := answers_vec (pwd := pwd) (s := s) (serial_reachable hc hd) h1 hq (.slice hk)
  rw [show vecMeaning d.cfg (l₀ ++ os) (.slice k) = .gives (l₀ ++ os) (vectorText d.cfg.prec ((l₀ ++ os).drop k)) by
    simp only [vecMeaning]
    rw [if_pos ⟨by omega, by omega⟩]
    rfl] at h4
  exact ⟨d, hd, hr _ (justReplies_of (serial_reachable hc hd) h1 h4)⟩

/-- C109: following the log: a client that asks for the events from `k` on, counts them, and later asks for the events from there on, receives with the two
answers all events from `k` on, each once and in order; the second answer is exactly what was appended between the two requests. -/
theorem C109_follow [StdSort] {k : Nat} {a1 a2 : Str} {seen : List Obj} (hc : Reachable c) (hn : Holds c n (.vector t l₀))
    (h : Serial pwd c (l1 ++ q1 :: (l2 ++ q2 :: l3)) c') (u1 : Authenticated pwd l1 q1.conn) (u2 : Authenticated pwd (l1 ++ q1 :: l2) q2.conn)
    (hp1 : Posted n t l1 os1) (hp2 : Posted n t l2 os2) (g1 : Statement q1.line n b!"sliceFromIndex:" [a1])
    (g2 : Statement q2.line n b!"sliceFromIndex:" [a2]) (k1 : Denotes b!"Integer" a1 (.integer k)) (hle : k ≤ (l₀ ++ os1).length)
    (hs : seen = (l₀ ++ os1).drop k) (k2 : Denotes b!"Integer" a2 (.integer ((k + seen.length : Nat)))) :
    ∃ p1 p2, q1.reply = vectorText p1 seen ∧ q2.reply = vectorText p2 os2 ∧ seen ++ os2 = (l₀ ++ (os1 ++ os2)).drop k := by
  subst hs
  obtain ⟨d1, _, e1⟩ := C109_from hc hn h u1 hp1 g1 k1 hle
  have hp : Posted n t (l1 ++ q1 :: l2) (os1 ++ os2) := posted_append hp1 (.other (.inr (.inl ⟨_, _, g1, by decide⟩)) hp2)
  have hlen : k + ((l₀ ++ os1).drop k).length = (l₀ ++ os1).length := by rw [List.length_drop]; omega
  rw [hlen] at k2
  obtain ⟨d2, _, e2⟩ := C109_from (l := l1 ++ q1 :: l2) hc hn (by simpa using h) u2 hp g2 k2 (by simp only [List.length_append]; omega)
  refine ⟨d1.cfg.prec, d2.cfg.prec, e1, ?_, ?_⟩
  · rw [e2, ← List.append_assoc, List.drop_left]
  · rw [← List.append_assoc, List.drop_append_of_le_length hle]

/-- C109: for every schedule of the server. -/
theorem C109_server [StdSort] {es : List Event} {s : Server} (hc : Reachable c) (h : run (Server.init pwd c) es = some (.done s)) :
    ∃ log, Explains pwd c es s log ∧ ∀ n t l₀ l q l', log = l ++ q :: l' → Authenticated pwd l q.conn → Holds c n (.vector t l₀) →
      OnlyPosts n l → ∃ os, Posted n t l os ∧
        (∀ a o, Statement q.line n b!"pushBack:" [a] → Denotes t a o → q.accepted) ∧
        (Statement q.line n b!"size" [] → q.reply = intStr (l₀ ++ os).length) ∧
        (∀ a (k : Nat), Statement q.line n b!"sliceFromIndex:" [a] → Denotes b!"Integer" a (.integer k) → k ≤ (l₀ ++ os).length →
          ∃ p, q.reply = vectorText p ((l₀ ++ os).drop k)) := by
  obtain ⟨log, hl⟩ := C44_serialized hc h
  refine ⟨log, hl, ?_⟩
  rintro n t l₀ l q l' rfl ha hn hu
  obtain ⟨d, hd⟩ := serial_prefix hl.serial
  obtain ⟨os, hp⟩ := C109_posted hc hn hd hu
  refine ⟨os, hp, fun a o hq ho => (C109_posts_are_accepted hc hn hl.serial hu ha hq ho).1, C109_size hc hn hl.serial ha hp,
    fun a k hq hk hle => ?_⟩
  obtain ⟨d, _, h1⟩ := C109_from hc hn hl.serial ha hp hq hk hle
  exact ⟨_, h1⟩

/-! ### A case: client 1 follows what client 0 writes -/

def topicStart : Ctx := { fresh with vars := [(b!"log", .vector b!"String" [.string b!"a"])] }
theorem topicStart_reachable [StdSort] : Reachable topicStart :=
  after_reachable (pwd := []) (s := none) (ts := [b!"Vector<String> create: log;", b!"log pushBack: \"a\";"]) fresh_reachable (by kernel_rfl)

def topicLog : List Request :=
  [⟨0, b!"log pushBack: \"b\";", b!"null"⟩, ⟨1, b!"log sliceFromIndex: 0;", b!"[\"a\",\"b\"]"⟩, ⟨0, b!"log pushBack: \"c\";", b!"null"⟩,
   ⟨1, b!"log sliceFromIndex: 2;", b!"[\"c\"]"⟩]

def topicEnd : Ctx := { fresh with vars := [(b!"log", .vector b!"String" [.string b!"a", .string b!"b", .string b!"c"])] }

theorem topic_serial [StdSort] : Serial [] topicStart topicLog topicEnd :=
  serially_serial (ls := [(0, b!"log pushBack: \"b\";"), (1, b!"log sliceFromIndex: 0;"), (0, b!"log pushBack: \"c\";"), (1, b!"log sliceFromIndex: 2;")])
    .nil (by simp) (by kernel_rfl)

theorem topic_lit (s v : Str) (h : stringLit s = .ok v) : Denotes b!"String" s (.string v) := by
  rcases stringLit_cases s with ⟨w, h1, h2⟩ | ⟨h1, _⟩ <;> rw [h] at h1 <;> cases h1
  exact .string h2

theorem topic_null {i : Nat} {t : Str} : (⟨i, t, b!"null"⟩ : Request).accepted := (by decide : b!"null" ∉ errorTexts)

theorem topic_holds : Holds topicStart b!"log" (.vector b!"String" [.string b!"a"]) := by decide +kernel

theorem topic_first : Posted b!"log" b!"String" (topicLog.take 1) [.string b!"b"] :=
  .post (reads (by decide +kernel)) (topic_lit b!"\"b\"" _ (by kernel_rfl)) topic_null .nil

theorem topic_second : Posted b!"log" b!"String" [topicLog[2]] [.string b!"c"] :=
  .post (reads (by decide +kernel)) (topic_lit b!"\"c\"" _ (by kernel_rfl)) topic_null .nil

example [StdSort] := C109_follow (l1 := topicLog.take 1) (q1 := topicLog[1]) (l2 := [topicLog[2]]) (q2 := topicLog[3]) (l3 := [])
  topicStart_reachable topic_holds topic_serial (.inl rfl) (.inl rfl) topic_first topic_second (a1 := b!"0") (a2 := b!"2") (reads (by decide +kernel)) (reads (by decide +kernel))
  (k := 0) (.integer (intStr_literal 0) (by decide)) (by decide) rfl (.integer (intStr_literal 2) (by decide))

theorem topic_only : OnlyPosts b!"log" (topicLog.take 2) := by
  have h0 : Statement b!"log pushBack: \"b\";" b!"log" b!"pushBack:" [b!"\"b\""] := reads (by decide +kernel)
  have h1 : Statement b!"log sliceFromIndex: 0;" b!"log" b!"sliceFromIndex:" [b!"0"] := reads (by decide +kernel)
  have nd : ∀ {t m a}, Statement t b!"log" m a → ¬ Deletes t b!"log" := by
    intro t m a h hd
    cases hd with
    | delete h' => exact absurd (statement_unique h h').1 (by decide)
    | deleteNamespace h' _ => exact absurd (statement_unique h h').1 (by decide)
  intro q hq _
  simp only [topicLog, List.take, List.mem_cons, List.not_mem_nil, or_false] at hq
  rcases hq with rfl | rfl
  · exact ⟨nd h0, fun _ _ h => .inr (statement_unique h h0).2.1⟩
  · exact ⟨nd h1, fun _ _ h => .inl (by rw [(statement_unique h h1).2.1]; decide)⟩

example [StdSort] := C109_posts_are_accepted (l := topicLog.take 2) (q := topicLog[2]) (l' := topicLog.drop 3) topicStart_reachable topic_holds topic_serial
  topic_only (.inl rfl) (reads (by decide +kernel)) (topic_lit b!"\"c\"" b!"c" (by kernel_rfl))

example [StdSort] := C109_posted (log := topicLog.take 2) topicStart_reachable topic_holds
  (serial_prefix (l1 := topicLog.take 2) (l2 := topicLog.drop 2) topic_serial).choose_spec topic_only

example [StdSort] := C109_from (a := b!"0") (k := 0) (l := topicLog.take 1) (q := topicLog[1]) (l' := topicLog.drop 2) topicStart_reachable topic_holds topic_serial
  (.inl rfl) topic_first (reads (by decide +kernel)) (.integer (intStr_literal 0) (by decide)) (by decide)

/-- All questions: numbers, size, and the whole. -/
def topicAsks : List Request :=
  [⟨0, b!"log pushBack: \"b\";", b!"null"⟩, ⟨1, b!"log atIndex: 1;", b!"\"b\""⟩, ⟨1, b!"log size;", b!"2"⟩, ⟨2, b!"log get;", b!"[\"a\",\"b\"]"⟩]

theorem topicAsks_serial [StdSort] : ∃ c', Serial [] topicStart topicAsks c' :=
  ⟨{ fresh with vars := [(b!"log", .vector b!"String" [.string b!"a", .string b!"b"])] },
    serially_serial (ls := [(0, b!"log pushBack: \"b\";"), (1, b!"log atIndex: 1;"), (1, b!"log size;"), (2, b!"log get;")])
      .nil (by simp) (by kernel_rfl)⟩

theorem topicAsks_posted (k : Nat) (h : k = 1 ∨ k = 2 ∨ k = 3) : Posted b!"log" b!"String" (topicAsks.take k) [.string b!"b"] := by
  have h1 : Statement b!"log atIndex: 1;" b!"log" b!"atIndex:" [b!"1"] := reads (by decide +kernel)
  have h2 : Statement b!"log size;" b!"log" b!"size" [] := reads (by decide +kernel)
  rcases h with rfl | rfl | rfl <;> refine .post (reads (by decide +kernel)) (topic_lit b!"\"b\"" _ (by kernel_rfl)) topic_null ?_
  · exact .nil
  · exact .other (.inr (.inl ⟨_, _, h1, by decide⟩)) .nil
  · exact .other (.inr (.inl ⟨_, _, h1, by decide⟩)) (.other (.inr (.inl ⟨_, _, h2, by decide⟩)) .nil)

example [StdSort] := C109_entry (a := b!"1") (k := 1) (o := .string b!"b") (l := topicAsks.take 1) (q := topicAsks[1]) (l' := topicAsks.drop 2)
  topicStart_reachable topic_holds topicAsks_serial.choose_spec (.inl rfl) (topicAsks_posted 1 (by simp)) (reads (by decide +kernel))
  (.integer (intStr_literal 1) (by decide)) rfl
example [StdSort] := C109_size (l := topicAsks.take 2) (q := topicAsks[2]) (l' := topicAsks.drop 3)
  topicStart_reachable topic_holds topicAsks_serial.choose_spec (.inl rfl) (topicAsks_posted 2 (by simp)) (reads (by decide +kernel))
example [StdSort] := C109_get (l := topicAsks.take 3) (q := topicAsks[3]) (l' := topicAsks.drop 4)
  topicStart_reachable topic_holds topicAsks_serial.choose_spec (.inl rfl) (topicAsks_posted 3 (by simp)) (reads (by decide +kernel))

end Knuckle.Props
