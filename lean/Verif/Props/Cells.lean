/-
C116: the keys of a dictionary as cells of their own.

`Serial pwd c log c'` is what C44 provides for every schedule of the server.
-/
import Verif.Props.Grow
import Verif.Spec.Cells

namespace Knuckle.Props

open Spec

variable {pwd : Str} {c c' c1 c2 : Ctx} {n t u a : Str} {l l' l1 l2 log log1 log2 : List Request} {q w : Request} {l₀ : List (Obj × Obj)} {k v : Obj}

theorem updatesOf_at {ops : List (Str × List Str × Str)} {name : Str} {args : List Str} (h : UpdatesOf n (l1 ++ w :: l2) ops)
    (hs : Statement w.line n name args) (hq : ¬ Question name) (ha : w.accepted) :
    ∃ p r, ops = p ++ (name, args, w.reply) :: r ∧ UpdatesOf n l1 p ∧ UpdatesOf n l2 r := by
  induction l1 generalizing ops with
  | nil =>
    cases h with
    | update hs' hq' _ h' =>
      obtain ⟨_, rfl, rfl⟩ := statement_unique hs hs'
      exact ⟨[], _, rfl, .nil, h'⟩
    | other ho _ =>
      rcases ho with h | ⟨nm, as, hs', hq'⟩ | h
      · exact absurd ha h
      · exact absurd ((statement_unique hs' hs).2.1 ▸ hq') hq
      · exact absurd (.message hs) h
  | cons x l1 ih =>
    cases h with
    | update hs' hq' ha' h' =>
      obtain ⟨p, r, rfl, hp, hr⟩ := ih h'
      exact ⟨_ :: p, r, rfl, .update hs' hq' ha' hp, hr⟩
    | other ho h' =>
      obtain ⟨p, r, rfl, hp, hr⟩ := ih h'
      exact ⟨p, r, rfl, .other ho hp, hr⟩

theorem updatesOf_split {ops p r : List (Str × List Str × Str)} {op : Str × List Str × Str} (h : UpdatesOf n log ops) (e : ops = p ++ op :: r) :
    ∃ l1 w l2, log = l1 ++ w :: l2 ∧ UpdatesOf n l1 p ∧ UpdatesOf n l2 r ∧ w.accepted ∧ Statement w.line n op.1 op.2.1 := by
  induction h generalizing p with
  | nil => simp at e
  | @update q log name args ops hs hq ha h ih =>
    rcases List.append_eq_cons_iff.1 e.symm with ⟨rfl, e'⟩ | ⟨p', rfl, e'⟩
    · cases e'
      exact ⟨[], q, log, rfl, .nil, h, ha, hs⟩
    · obtain ⟨l1, w, l2, rfl, h1, h2⟩ := ih e'
      exact ⟨q :: l1, w, l2, rfl, .update hs hq ha h1, h2⟩
  | other ho _ ih =>
    obtain ⟨l1, w, l2, rfl, h1, h2⟩ := ih e
    exact ⟨_ :: l1, w, l2, rfl, .other ho h1, h2⟩

theorem puts_iff : Puts n t u k v q ↔ q.accepted ∧ ∃ name args, Statement q.line n name args ∧ Associates t u k v (name, args, q.reply) := by
  constructor
  · rintro ⟨ha, a, b, hs, h1, h2⟩
    exact ⟨ha, _, _, hs, a, b, rfl, rfl, h1, h2⟩
  · rintro ⟨ha, name, args, hs, a, b, e1, e2, h1, h2⟩
    dsimp only at e1 e2
    subst e1 e2
    exact ⟨ha, a, b, hs, h1, h2⟩

theorem writesCell_iff : WritesCell n t u k q ↔ q.accepted ∧ ∃ name args, Statement q.line n name args ∧ Rewrites t u k (name, args, q.reply) := by
  constructor
  · rintro (⟨v, h⟩ | ⟨ha, ⟨args, hs⟩ | ⟨a, hs, hd⟩⟩)
    · obtain ⟨ha, name, args, hs, h⟩ := puts_iff.1 h
      exact ⟨ha, name, args, hs, .inl ⟨v, h⟩⟩
    · exact ⟨ha, _, _, hs, .inr (.inl rfl)⟩
    · exact ⟨ha, _, _, hs, .inr (.inr ⟨a, rfl, rfl, hd⟩)⟩
  · rintro ⟨ha, name, args, hs, ⟨v, h⟩ | h | ⟨a, e1, e2, hd⟩⟩
    · exact .inl ⟨v, puts_iff.2 ⟨ha, name, args, hs, h⟩⟩
    · exact .inr ⟨ha, .inl ⟨args, (h : name = _) ▸ hs⟩⟩
    · dsimp only at e1 e2
      subst e1 e2
      exact .inr ⟨ha, .inr ⟨a, hs, hd⟩⟩

theorem rewrites_no_question {op : Str × List Str × Str} (h : Rewrites t u k op) : ¬ Question op.1 := by
  rcases h with ⟨_, _, _, e, _⟩ | e | ⟨_, e, _⟩ <;> rw [e] <;> decide

theorem no_rewrites {ops : List (Str × List Str × Str)} (h : UpdatesOf n log ops) :
    (∀ x ∈ ops, ¬ Rewrites t u k x) ↔ ∀ q ∈ log, ¬ WritesCell n t u k q := by
  constructor
  · intro hx q hq hw
    obtain ⟨ha, name, args, hs, hr⟩ := writesCell_iff.1 hw
    exact hx _ ((updatesOf_mem h (name, args, q.reply)).2 ⟨q, hq, ha, hs, rewrites_no_question hr, rfl⟩) hr
  · intro hq x hx hr
    obtain ⟨q, hql, ha, hs, _, e⟩ := (updatesOf_mem h x).1 hx
    refine hq q hql (writesCell_iff.2 ⟨ha, x.1, x.2.1, hs, ?_⟩)
    rw [← e]; exact hr

/-- `v` is the value of the key after the log, in terms of the log. -/
theorem valueAfter_iff {ops : List (Str × List Str × Str)} (h : UpdatesOf n log ops) : ValueAfter t u l₀ ops k v ↔ CellAfter n t u l₀ log k v := by
  unfold ValueAfter CellAfter
  rw [no_rewrites h]
  refine or_congr_left ⟨?_, ?_⟩
  · rintro ⟨p, op, r, e, hop, hr⟩
    obtain ⟨l1, w, l2, rfl, _, h2, ha, hs⟩ := updatesOf_split h e
    exact ⟨l1, w, l2, rfl, puts_iff.2 ⟨ha, _, _, hs, hop⟩, (no_rewrites h2).1 hr⟩
  · rintro ⟨l1, w, l2, rfl, hw, hx⟩
    obtain ⟨ha, name, args, hs, has⟩ := puts_iff.1 hw
    obtain ⟨p, r, rfl, _, h2⟩ := updatesOf_at h hs (rewrites_no_question (.inl ⟨v, has⟩)) ha
    exact ⟨p, _, r, rfl, has, (no_rewrites h2).2 hx⟩

/-- C116: after any history in which the dictionary is not deleted, the value of a key is the one of the last accepted request that writes this cell,
whatever happens to other keys. -/
theorem C116_holds [StdSort] (ht : t ≠ b!"Float") (hc : Reachable c) (hn : Holds c n (.dictionary t u l₀)) (h : Serial pwd c log c') (hk : Kept n log) :
    ∃ m, Holds c' n (.dictionary t u m) ∧ ∀ k v, (k, v) ∈ m ↔ CellAfter n t u l₀ log k v := by
  obtain ⟨ops, ho⟩ := C67_every_history hk
  obtain ⟨m, hm, h1⟩ := C24_dictionaries_are_maps ht hc hn (serial_updates h ho)
  exact ⟨m, hm, fun k v => (h1 k v).trans (valueAfter_iff ho)⟩

open Classical in
/-- C116: `containsKey?` answers whether a key has a value, and this also depends on the requests that write this cell only. -/
theorem C116_containsKey [StdSort] (ht : t ≠ b!"Float") (hc : Reachable c) (hn : Holds c n (.dictionary t u l₀)) (h : Serial pwd c (l ++ q :: l') c')
    (hk : Kept n l) (ha : Authenticated pwd l q.conn) (hq : Statement q.line n b!"containsKey?" [a]) (hd : Denotes t a k) :
    q.reply = truth (∃ v, CellAfter n t u l₀ l k v) := by
  obtain ⟨d, s, hs, hr⟩ := read_at h ha
  obtain ⟨m, hm, h1⟩ := C116_holds ht hc hn hs hk
  rw [hr _ (C24_containsKey ht (serial_reachable hc hs) hm hq hd)]
  have e : k ∈ m.map (·.1) ↔ ∃ v, CellAfter n t u l₀ l k v := by simp [← h1]
  unfold truth
  by_cases h : k ∈ m.map (·.1)
  · rw [if_pos h, if_pos (e.1 h)]
  · rw [if_neg h, if_neg fun h' => h (e.2 h')]

/-- C116: a key that has no value is answered `null`. -/
theorem C116_none [StdSort] (ht : t ≠ b!"Float") (hc : Reachable c) (hn : Holds c n (.dictionary t u l₀)) (h : Serial pwd c (l ++ q :: l') c')
    (hk : Kept n l) (ha : Authenticated pwd l q.conn) (hq : Statement q.line n b!"getValueForKey:" [a]) (hd : Denotes t a k)
    (hv : ¬ ∃ v, CellAfter n t u l₀ l k v) : q.reply = b!"null" := by
  obtain ⟨d, s, hs, hr⟩ := read_at h ha
  obtain ⟨m, hm, h1⟩ := C116_holds ht hc hn hs hk
  exact hr _ (C24_getValueForKey_unknown ht (serial_reachable hc hs) hm hq hd fun v h => hv ⟨v, (h1 k v).1 h⟩)

/-- C116: who writes a cell reads what was written, as long as nobody else writes the same cell, whatever is done to other keys.  (A Float is printed with the
precision of that moment.) -/
theorem C116_reads [StdSort] (ht : t ≠ b!"Float") (hc : Reachable c) (hn : Holds c n (.dictionary t u l₀))
    (h : Serial pwd c (l1 ++ w :: (l2 ++ q :: l')) c') (hk : Kept n (l1 ++ w :: l2)) (hw : Puts n t u k v w) (hx : ∀ x ∈ l2, ¬ WritesCell n t u k x)
    (ha : Authenticated pwd (l1 ++ w :: l2) q.conn) (hq : Statement q.line n b!"getValueForKey:" [a]) (hd : Denotes t a k) :
    ∃ d, Serial pwd c (l1 ++ w :: l2) d ∧ q.reply = v.repr d.cfg.prec := by
  have h : Serial pwd c ((l1 ++ w :: l2) ++ q :: l') c' := by simpa using h
  obtain ⟨d, s, hs, hr⟩ := read_at h ha
  obtain ⟨m, hm, h1⟩ := C116_holds ht hc hn hs hk
  exact ⟨d, hs, hr _ (C24_getValueForKey ht (serial_reachable hc hs) hm hq hd ((h1 k v).2 (.inl ⟨l1, w, l2, rfl, hw, hx⟩)))⟩

/-- C116: so unless the values are Floats the reply is the printed value. -/
theorem C116_reads_own [StdSort] (ht : t ≠ b!"Float") (hu : u ≠ b!"Float") (hc : Reachable c) (hn : Holds c n (.dictionary t u l₀))
    (h : Serial pwd c (l1 ++ w :: (l2 ++ q :: l')) c') (hk : Kept n (l1 ++ w :: l2)) (hw : Puts n t u k v w) (hx : ∀ x ∈ l2, ¬ WritesCell n t u k x)
    (ha : Authenticated pwd (l1 ++ w :: l2) q.conn) (hq : Statement q.line n b!"getValueForKey:" [a]) (hd : Denotes t a k) (p : Int) :
    q.reply = v.repr p := by
  obtain ⟨d, _, e⟩ := C116_reads ht hc hn h hk hw hx ha hq hd
  obtain ⟨_, _, _, _, hv, _⟩ := hw
  rw [e]
  exact repr_nonfloat hu (denotes_type hv) _ _

/-- C116: in particular if each key is only written by the client that owns it (and nobody clears the dictionary), each client reads what it wrote last. -/
theorem C116_owner [StdSort] {i : Nat} (ht : t ≠ b!"Float") (hu : u ≠ b!"Float") (hc : Reachable c) (hn : Holds c n (.dictionary t u l₀))
    (h : Serial pwd c (l1 ++ w :: (l2 ++ q :: l')) c') (hk : Kept n (l1 ++ w :: l2)) (hown : ∀ x ∈ l1 ++ w :: l2, WritesCell n t u k x → x.conn = i)
    (hw : Puts n t u k v w) (hlast : ∀ x ∈ l2, x.conn = i → ¬ WritesCell n t u k x)
    (ha : Authenticated pwd (l1 ++ w :: l2) q.conn) (hq : Statement q.line n b!"getValueForKey:" [a]) (hd : Denotes t a k) (p : Int) :
    q.reply = v.repr p :=
  C116_reads_own ht hu hc hn h hk hw (fun x hx hwc => hlast x hx (hown x (by simp [hx]) hwc) hwc) ha hq hd p

open Classical in
/-- C116: what a key holds depends only on the requests that write this cell, in their order: two histories that have the same of them, however they
are mixed with other requests, give it the same value, or none. -/
theorem C116_independent [StdSort] {pwd' : Str} (ht : t ≠ b!"Float") (hc : Reachable c) (hn : Holds c n (.dictionary t u l₀)) (h1 : Serial pwd c log1 c1)
    (h2 : Serial pwd' c log2 c2) (k1 : Kept n log1) (k2 : Kept n log2)
    (he : log1.filter (fun x => WritesCell n t u k x) = log2.filter (fun x => WritesCell n t u k x)) :
    ∃ m1 m2, Holds c1 n (.dictionary t u m1) ∧ Holds c2 n (.dictionary t u m2) ∧ ∀ v, (k, v) ∈ m1 ↔ (k, v) ∈ m2 := by
  obtain ⟨m1, a1, b1⟩ := C116_holds ht hc hn h1 k1
  obtain ⟨m2, a2, b2⟩ := C116_holds ht hc hn h2 k2
  refine ⟨m1, m2, a1, a2, fun v => ?_⟩
  have key : ∀ log : List Request, CellAfter n t u l₀ log k v ↔
      ((∃ l1 w, log.filter (fun x => WritesCell n t u k x) = l1 ++ [w] ∧ Puts n t u k v w) ∨
        ((k, v) ∈ l₀ ∧ log.filter (fun x => WritesCell n t u k x) = [])) := by
    intro log
    refine or_congr ⟨?_, ?_⟩ (and_congr_right fun _ => by simp)
    · rintro ⟨l1, w, l2, rfl, hw, hx⟩
      refine ⟨l1.filter (fun x => WritesCell n t u k x), w, ?_, hw⟩
      rw [List.filter_append, List.filter_cons_of_pos (by simpa using .inl ⟨v, hw⟩), (List.filter_eq_nil_iff (l := l2)).2 (by simpa using hx)]
    · rintro ⟨p, w, e, hw⟩
      obtain ⟨l1, l2, rfl, _, e2⟩ := List.filter_eq_append_iff.1 e
      obtain ⟨l3, l4, rfl, _, _, e3⟩ := List.filter_eq_cons_iff.1 e2
      exact ⟨l1 ++ l3, w, l4, by simp, hw, by simpa using List.filter_eq_nil_iff.1 e3⟩
  rw [b1, b2, key, key, he]

/-- C116: for every schedule of the server. -/
theorem C116_server [StdSort] {es : List Event} {s : Server} (hc : Reachable c) (h : run (Server.init pwd c) es = some (.done s)) :
    ∃ log, Explains pwd c es s log ∧ ∀ n t u l₀ l1 w l2 q l' k v a p, log = l1 ++ w :: (l2 ++ q :: l') → t ≠ b!"Float" → u ≠ b!"Float" →
      Holds c n (.dictionary t u l₀) → Kept n (l1 ++ w :: l2) → Puts n t u k v w → (∀ x ∈ l2, ¬ WritesCell n t u k x) →
      Authenticated pwd (l1 ++ w :: l2) q.conn → Statement q.line n b!"getValueForKey:" [a] → Denotes t a k → q.reply = v.repr p := by
  obtain ⟨log, hl⟩ := C44_serialized hc h
  refine ⟨log, hl, ?_⟩
  rintro n t u l₀ l1 w l2 q l' k v a p rfl ht hu hn hk hw hx ha hq hd
  exact C116_reads_own ht hu hc hn hl.serial hk hw hx ha hq hd p

/-! ### A case: two clients that keep their state in one dictionary -/

def cellStart : Ctx := { fresh with vars := [(b!"state", .dictionary b!"String" b!"Integer" [])] }

theorem cellStart_reachable [StdSort] : Reachable cellStart :=
  after_reachable (pwd := []) (s := none) (ts := [b!"Dictionary<String,Integer> create: state;"]) fresh_reachable (by kernel_rfl)

theorem cell_holds : Holds cellStart b!"state" (.dictionary b!"String" b!"Integer" []) := by decide +kernel

def cellLog : List Request :=
  [⟨0, b!"state associateValue: 1 withKey: \"a\";", b!"null"⟩, ⟨1, b!"state associateValue: 7 withKey: \"b\";", b!"null"⟩,
   ⟨0, b!"state associateValue: 2 withKey: \"a\";", b!"null"⟩, ⟨1, b!"state removeKey: \"b\";", b!"null"⟩,
   ⟨0, b!"state getValueForKey: \"a\";", b!"2"⟩]

theorem cell_serial [StdSort] : ∃ c', Serial [] cellStart cellLog c' :=
  ⟨{ fresh with vars := [(b!"state", .dictionary b!"String" b!"Integer" [(.string b!"a", .integer 2)])] },
    serially_serial (ls := [(0, b!"state associateValue: 1 withKey: \"a\";"), (1, b!"state associateValue: 7 withKey: \"b\";"),
      (0, b!"state associateValue: 2 withKey: \"a\";"), (1, b!"state removeKey: \"b\";"), (0, b!"state getValueForKey: \"a\";")])
      .nil (by simp) (by kernel_rfl)⟩

theorem cell_s0 : Statement b!"state associateValue: 1 withKey: \"a\";" b!"state" b!"associateValue:withKey:" [b!"1", b!"\"a\""] := reads (by kernel_rfl)
theorem cell_s1 : Statement b!"state associateValue: 7 withKey: \"b\";" b!"state" b!"associateValue:withKey:" [b!"7", b!"\"b\""] := reads (by kernel_rfl)
theorem cell_s2 : Statement b!"state associateValue: 2 withKey: \"a\";" b!"state" b!"associateValue:withKey:" [b!"2", b!"\"a\""] := reads (by kernel_rfl)
theorem cell_s3 : Statement b!"state removeKey: \"b\";" b!"state" b!"removeKey:" [b!"\"b\""] := reads (by kernel_rfl)
theorem cell_a : Denotes b!"String" b!"\"a\"" (.string b!"a") := topic_lit b!"\"a\"" b!"a" (by kernel_rfl)
theorem cell_b : Denotes b!"String" b!"\"b\"" (.string b!"b") := topic_lit b!"\"b\"" b!"b" (by kernel_rfl)

theorem cell_kept : Kept b!"state" (cellLog.take 4) := by
  have nd : ∀ {t m a}, Statement t b!"state" m a → ¬ Deletes t b!"state" := by
    intro t m a h hd
    cases hd with
    | delete h' => exact absurd (statement_unique h h').1 (by decide)
    | deleteNamespace h' _ => exact absurd (statement_unique h h').1 (by decide)
  intro q hq _
  simp only [cellLog, List.take, List.mem_cons, List.not_mem_nil, or_false] at hq
  rcases hq with rfl | rfl | rfl | rfl
  · exact nd cell_s0
  · exact nd cell_s1
  · exact nd cell_s2
  · exact nd cell_s3

theorem cell_puts : Puts b!"state" b!"String" b!"Integer" (.string b!"a") (.integer 2) cellLog[2] :=
  ⟨topic_null, _, _, cell_s2, .integer (intStr_literal 2) (by decide), cell_a⟩

theorem cell_other : ∀ x ∈ [cellLog[3]], ¬ WritesCell b!"state" b!"String" b!"Integer" (.string b!"a") x := by
  intro x hx
  rw [List.mem_singleton.1 hx]
  rintro (⟨v, _, a, b, hs, _⟩ | ⟨_, ⟨_, hs⟩ | ⟨a, hs, hd⟩⟩)
  · exact absurd (statement_unique cell_s3 hs).2.1 (by decide)
  · exact absurd (statement_unique cell_s3 hs).2.1 (by decide)
  · have e := (statement_unique cell_s3 hs).2.2
    cases e
    exact absurd (denotes_unique hd cell_b) (by decide)

theorem cell_puts0 : Puts b!"state" b!"String" b!"Integer" (.string b!"a") (.integer 1) cellLog[0] :=
  ⟨topic_null, _, _, cell_s0, .integer (intStr_literal 1) (by decide), cell_a⟩

theorem cell_other1 : ¬ WritesCell b!"state" b!"String" b!"Integer" (.string b!"a") cellLog[1] := by
  rintro (⟨v, _, a, b, hs, _, hd⟩ | ⟨_, ⟨_, hs⟩ | ⟨a, hs, hd⟩⟩)
  · have e := (statement_unique cell_s1 hs).2.2
    cases e
    exact absurd (denotes_unique hd cell_b) (by decide)
  · exact absurd (statement_unique cell_s1 hs).2.1 (by decide)
  · exact absurd (statement_unique cell_s1 hs).2.1 (by decide)

theorem cell_owned : ∀ x ∈ cellLog.take 4, WritesCell b!"state" b!"String" b!"Integer" (.string b!"a") x → x.conn = 0 := by
  intro x hx hw
  simp only [cellLog, List.take, List.mem_cons, List.not_mem_nil, or_false] at hx
  rcases hx with rfl | rfl | rfl | rfl
  · rfl
  · exact absurd hw cell_other1
  · rfl
  · exact absurd hw (cell_other _ (List.mem_singleton.2 rfl))

/-- The same requests, mixed differently. -/
def cellMixed : List Request := [cellLog[1], cellLog[0], cellLog[3], cellLog[2]]

theorem cell_mixed_serial [StdSort] : ∃ c', Serial [] cellStart cellMixed c' :=
  ⟨{ fresh with vars := [(b!"state", .dictionary b!"String" b!"Integer" [(.string b!"a", .integer 2)])] },
    serially_serial (ls := [(1, b!"state associateValue: 7 withKey: \"b\";"), (0, b!"state associateValue: 1 withKey: \"a\";"),
      (1, b!"state removeKey: \"b\";"), (0, b!"state associateValue: 2 withKey: \"a\";")])
      .nil (by simp) (by kernel_rfl)⟩

theorem cell_mixed_kept : Kept b!"state" cellMixed := fun q hq => cell_kept q (by
  simp only [cellMixed, cellLog, List.take, List.mem_cons, List.not_mem_nil, List.getElem_cons_zero, List.getElem_cons_succ] at hq ⊢
  tauto)

example [StdSort] := C116_independent (log1 := cellLog.take 4) (log2 := cellMixed) (t := b!"String") (u := b!"Integer") (k := .string b!"a") (by decide)
  cellStart_reachable cell_holds (serial_prefix (l1 := cellLog.take 4) (l2 := cellLog.drop 4) cell_serial.choose_spec).choose_spec
  cell_mixed_serial.choose_spec cell_kept cell_mixed_kept (by
    have h0 := show WritesCell _ _ _ _ _ from .inl ⟨_, cell_puts0⟩
    have h2 := show WritesCell _ _ _ _ _ from .inl ⟨_, cell_puts⟩
    have h3 := cell_other _ (List.mem_singleton.2 rfl)
    have e : cellLog.take 4 = [cellLog[0], cellLog[1], cellLog[2], cellLog[3]] := rfl
    rw [e]
    simp only [cellMixed, List.filter_cons, h0, cell_other1, h2, h3, decide_true, decide_false, if_true, Bool.false_eq_true, if_false, List.filter_nil])

example [StdSort] := C116_owner (i := 0) (l1 := cellLog.take 2) (w := cellLog[2]) (l2 := [cellLog[3]]) (q := cellLog[4]) (l' := []) (by decide) (by decide)
  cellStart_reachable cell_holds cell_serial.choose_spec cell_kept cell_owned cell_puts (fun x hx _ => cell_other x hx) (.inl rfl) (reads (by kernel_rfl)) cell_a 6

def cellEvents : List Event := [
  .accept, .accept, .recv 0 b!"state associateValue: 1 withKey: \"a\";\n", .read 0, .wrote 0,
  .recv 1 b!"state associateValue: 7 withKey: \"b\";\n", .read 1, .wrote 1, .recv 0 b!"state getValueForKey: \"a\";\n", .read 0, .wrote 0]

theorem cell_run [StdSort] : ∃ s, run (Server.init [] cellStart) cellEvents = some (.done s) ∧ s.conns.map Conn.out = [b!"null\n1\n", b!"null\n"] :=
  ⟨{ pwd := [], ctx := { fresh with vars := [(b!"state", .dictionary b!"String" b!"Integer" [(.string b!"a", .integer 1), (.string b!"b", .integer 7)])] },
      accepting := true, conns := [
      { sess := ⟨true, true⟩, inbuf := [], phase := .reading, out := b!"null\n1\n" },
      { sess := ⟨true, true⟩, inbuf := [], phase := .reading, out := b!"null\n" }] }, by kernel_rfl, rfl⟩

/-- Client 1 removed its key. -/
theorem cell_removed [StdSort] : ∃ c', Serial [] cellStart [⟨0, b!"state associateValue: 2 withKey: \"a\";", b!"null"⟩,
    ⟨1, b!"state getValueForKey: \"b\";", b!"null"⟩, ⟨1, b!"state containsKey? \"a\";", b!"true"⟩] c' :=
  ⟨{ fresh with vars := [(b!"state", .dictionary b!"String" b!"Integer" [(.string b!"a", .integer 2)])] },
    serially_serial (ls := [(0, b!"state associateValue: 2 withKey: \"a\";"), (1, b!"state getValueForKey: \"b\";"), (1, b!"state containsKey? \"a\";")])
      .nil (by simp) (by kernel_rfl)⟩

theorem cell_not_b : ¬ WritesCell b!"state" b!"String" b!"Integer" (.string b!"b") ⟨0, b!"state associateValue: 2 withKey: \"a\";", b!"null"⟩ := by
  rintro (⟨v, _, a, b, hs, _, hd⟩ | ⟨_, ⟨_, hs⟩ | ⟨a, hs, hd⟩⟩)
  · have e := (statement_unique cell_s2 hs).2.2
    cases e
    exact absurd (denotes_unique hd cell_a) (by decide)
  · exact absurd (statement_unique cell_s2 hs).2.1 (by decide)
  · exact absurd (statement_unique cell_s2 hs).2.1 (by decide)

theorem cell_kept1 : Kept b!"state" [⟨0, b!"state associateValue: 2 withKey: \"a\";", b!"null"⟩] := fun q hq => cell_kept q (by
  rw [List.mem_singleton.1 hq]; simp [cellLog])

example [StdSort] := C116_none (l := [_]) (l' := [_]) (by decide) cellStart_reachable cell_holds cell_removed.choose_spec cell_kept1 (.inl rfl)
  (reads (by kernel_rfl)) cell_b (by
    rintro ⟨v, ⟨l1, w, l2, e, hw, _⟩ | ⟨h, _⟩⟩
    · have : w ∈ [(⟨0, b!"state associateValue: 2 withKey: \"a\";", b!"null"⟩ : Request)] := by rw [e]; simp
      rw [List.mem_singleton.1 this] at hw
      exact cell_not_b (.inl ⟨v, hw⟩)
    · cases h)

theorem cell_removed' [StdSort] : ∃ c', Serial [] cellStart [⟨0, b!"state associateValue: 2 withKey: \"a\";", b!"null"⟩,
    ⟨1, b!"state containsKey? \"a\";", b!"true"⟩] c' :=
  ⟨{ fresh with vars := [(b!"state", .dictionary b!"String" b!"Integer" [(.string b!"a", .integer 2)])] },
    serially_serial (ls := [(0, b!"state associateValue: 2 withKey: \"a\";"), (1, b!"state containsKey? \"a\";")])
      .nil (by simp) (by kernel_rfl)⟩

example [StdSort] := C116_containsKey (l := [_]) (l' := []) (by decide) cellStart_reachable cell_holds cell_removed'.choose_spec cell_kept1 (.inl rfl)
  (reads (by kernel_rfl)) cell_a

example [StdSort] := C116_server cellStart_reachable cell_run.choose_spec.1

/-- Client 1 changes another key in between, and client 0 reads what it wrote. -/
example [StdSort] := C116_reads_own (l1 := cellLog.take 2) (w := cellLog[2]) (l2 := [cellLog[3]]) (q := cellLog[4]) (l' := []) (by decide) (by decide)
  cellStart_reachable cell_holds cell_serial.choose_spec cell_kept cell_puts cell_other (.inl rfl) (reads (by kernel_rfl)) cell_a 6

end Knuckle.Props
