/-
C117: a vector with one element as a cell with compare and swap.

`Serial pwd c log c'` is what C44 provides for every schedule of the server.
-/
import Verif.Props.Queue
import Verif.Props.Reads
import Verif.Props.Grow
import Verif.Spec.Swap

namespace Knuckle.Props

open Spec

variable {pwd : Str} {c c' : Ctx} {n t a a1 a2 : Str} {l l' l1 l2 log : List Request} {q q1 q2 w : Request} {x y z o r : Obj}

theorem vec_replace {cfg : Cfg} {i : Inst} {s : Str} {args : List Str} (h : Behaves cfg (.vector t [y]) b!"replaceFirst:with:" args (.gives i s)) :
    ∃ a b o r, args = [a, b] ∧ Denotes t a o ∧ Denotes t b r ∧ s = b!"null" ∧ i = .vector t [if same cfg.eps y o then r else y] := by
  generalize hx : Result.gives i s = x at h
  generalize hn : b!"replaceFirst:with:" = nm at h
  cases h with
  | @vector _ _ _ _ m hs =>
    obtain ⟨w, e, rfl⟩ := map_gives hx.symm
    cases hs <;> first | exact absurd hn (by decide) | skip
    rename_i a o b r h1 h2
    refine ⟨a, b, o, r, rfl, h1, h2, ?_⟩
    by_cases hy : same cfg.eps y o = true
    · simp [vecMeaning, List.findIdx?_cons, hy] at e
      exact ⟨e.2.symm, by simp [← e.1, hy]⟩
    · rw [Bool.not_eq_true] at hy
      simp [vecMeaning, List.findIdx?_cons, hy] at e
      exact ⟨e.2.symm, by simp [← e.1, hy]⟩
  | _ => exact absurd hn (by decide)

theorem swap_unique {o' r' : Obj} (h : Swap n t o r q) (h' : Swap n t o' r' q) : o = o' ∧ r = r' := by
  obtain ⟨_, a, b, hs, h1, h2⟩ := h
  obtain ⟨_, a', b', hs', h1', h2'⟩ := h'
  have e := (statement_unique hs hs').2.2
  cases e
  exact ⟨denotes_unique h1 h1', denotes_unique h2 h2'⟩

theorem swap_concerns (h : Swap n t o r q) : ¬ (¬ q.accepted ∨ (∃ name args, Statement q.line n name args ∧ Question name) ∨ ¬ Concerns q.line n) := by
  obtain ⟨ha, a, b, hs, _⟩ := h
  rintro (h | ⟨nm, as, hs', hq⟩ | h)
  · exact h ha
  · exact absurd ((statement_unique hs' hs).2.1 ▸ hq) (by decide)
  · exact h (.message hs)

theorem swapped_nil (h : Swapped n t x [] y) : y = x := by
  generalize e : ([] : List Request) = k at h
  cases h with
  | nil => rfl
  | _ => simp at e

theorem swapped_snoc (h : Swapped n t x (log ++ [q]) z) : ∃ y, Swapped n t x log y ∧
    ((∃ o r, Swap n t o r q ∧ ((y = o ∧ z = r) ∨ (y ≠ o ∧ z = y))) ∨
      ((¬ q.accepted ∨ (∃ name args, Statement q.line n name args ∧ Question name) ∨ ¬ Concerns q.line n) ∧ z = y)) := by
  generalize e : log ++ [q] = k at h
  cases h with
  | nil => simp at e
  | hit hw h => obtain ⟨rfl, e2⟩ := List.append_inj' e rfl; obtain rfl := (List.cons.inj e2).1; exact ⟨_, h, .inl ⟨_, _, hw, .inl ⟨rfl, rfl⟩⟩⟩
  | miss hw hy h => obtain ⟨rfl, e2⟩ := List.append_inj' e rfl; obtain rfl := (List.cons.inj e2).1; exact ⟨_, h, .inl ⟨_, _, hw, .inr ⟨hy, rfl⟩⟩⟩
  | other ho h => obtain ⟨rfl, e2⟩ := List.append_inj' e rfl; obtain rfl := (List.cons.inj e2).1; exact ⟨_, h, .inr ⟨ho, rfl⟩⟩

/-- C117: the log alone determines the content. -/
theorem C117_unique (h : Swapped n t x log y) (h' : Swapped n t x log z) : y = z := by
  induction log using List.reverseRecOn generalizing y z with
  | nil =>
    rw [swapped_nil h, swapped_nil h']
  | append_singleton log q ih =>
    obtain ⟨y1, h1, hy⟩ := swapped_snoc h
    obtain ⟨z1, h2, hz⟩ := swapped_snoc h'
    have e := ih h1 h2
    subst e
    rcases hy with ⟨o, r, hw, hy⟩ | ⟨ho, rfl⟩ <;> rcases hz with ⟨o', r', hw', hz⟩ | ⟨ho', rfl⟩
    · obtain ⟨rfl, rfl⟩ := swap_unique hw hw'
      rcases hy with ⟨h1, rfl⟩ | ⟨h1, rfl⟩ <;> rcases hz with ⟨h2, rfl⟩ | ⟨h2, rfl⟩
      · rfl
      · exact absurd h1 h2
      · exact absurd h2 h1
      · rfl
    · exact absurd ho' (swap_concerns hw)
    · exact absurd ho (swap_concerns hw')
    · rfl

/-- C117: the vector always has one element: what the swaps of the log make of the first one.  Each swap replaces the content exactly if it is the
expected one, and nothing happens between the comparison and the replacement. -/
theorem C117_content [StdSort] (ht : t ≠ b!"Float") (hc : Reachable c) (hn : Holds c n (.vector t [x])) (h : Serial pwd c log c')
    (hw : Swapped n t x log y) : Holds c' n (.vector t [y]) := by
  have step : ∀ {log : List Request} {q : Request} {o r y : Obj} {c' : Ctx}, Serial pwd c (log ++ [q]) c' → Swap n t o r q →
      (∀ {d}, Serial pwd c log d → Holds d n (.vector t [y])) → ∃ e : Fl, HasType t y ∧ HasType t o ∧ Holds c' n (.vector t [if same e y o then r else y]) := by
    intro log q o r y c' h ⟨ha, a, b, hs, h1, h2⟩ ih
    obtain ⟨d, hd, _, ⟨s, s', _, _, he⟩ | ⟨_, _, h3, _⟩⟩ := serial_snoc h
    swap
    · exact absurd (by rw [h3]; decide) ha
    have hk := ih hd
    obtain ⟨i, hb, ho, _⟩ := accepted_behaves (serial_reachable hc hd) hk hs he ha
    obtain ⟨a', b', o', r', e, h1', h2', _, rfl⟩ := vec_replace hb
    cases e
    rw [denotes_unique h1' h1, denotes_unique h2' h2] at ho
    exact ⟨_, (holds_wellTyped (serial_reachable hc hd) hk).2 y (by simp), denotes_type h1, onlyChanged_holds ho⟩
  induction hw generalizing c' with
  | nil =>
    generalize hl : ([] : List Request) = l at h
    cases h with
    | nil => exact hn
    | executed => simp at hl
    | ignored => simp at hl
  | @hit q log o r hs _ ih =>
    obtain ⟨e, h1, h2, h3⟩ := step h hs ih
    rwa [if_pos ((C20_same_elements ht e h1 h2).2 rfl)] at h3
  | @miss q log o r y hs hy _ ih =>
    obtain ⟨e, h1, h2, h3⟩ := step h hs ih
    rwa [if_neg fun h => hy ((C20_same_elements ht e h1 h2).1 h)] at h3
  | @other q log y ho _ ih =>
    obtain ⟨d, hd, _, ⟨s, s', _, _, he⟩ | ⟨_, _, h3, rfl⟩⟩ := serial_snoc h
    · obtain ⟨_, j, hj, hch⟩ := updates_chain (serial_reachable hc hd) (ih hd)
        (.other he (ho.elim (fun h => .inl (not_not.1 h)) .inr) .nil : Updates n d [] c')
      cases hch
      exact hj
    · exact ih hd

/-- C117: if there are no deletions, and the accepted messages to the vector are only questions and `replaceFirst:with:`, the history is of this form. -/
theorem C117_every_history [StdSort] (ht : t ≠ b!"Float") (hc : Reachable c) (hn : Holds c n (.vector t [x])) (h : Serial pwd c log c')
    (hu : OnlySwaps n log) : ∃ y, Swapped n t x log y := by
  induction log using List.reverseRecOn generalizing c' with
  | nil => exact ⟨x, .nil⟩
  | append_singleton l q ih =>
    obtain ⟨d, hd, _, hq⟩ := serial_snoc h
    obtain ⟨y, hp⟩ := ih hd fun x hx => hu x (List.mem_append_left _ hx)
    by_cases ha : q.accepted
    swap
    · exact ⟨_, .other (.inl ha) hp⟩
    obtain ⟨h1, h2⟩ := hu q (by simp) ha
    by_cases hcon : Concerns q.line n
    swap
    · exact ⟨_, .other (.inr (.inr hcon)) hp⟩
    cases hcon with
    | @message name args hst =>
      rcases hq with ⟨s, s', _, _, he⟩ | ⟨_, _, h3, _⟩
      swap
      · exact absurd (by rw [h3]; decide) ha
      rcases h2 name args hst with hqu | rfl
      · exact ⟨_, .other (.inr (.inl ⟨name, args, hst, hqu⟩)) hp⟩
      · obtain ⟨i, hb, _⟩ := accepted_behaves (serial_reachable hc hd) (C117_content ht hc hn hd hp) hst he ha
        obtain ⟨a, b, o, r, rfl, h3, h4, _⟩ := vec_replace hb
        have hs : Swap n t o r q := ⟨ha, a, b, hst, h3, h4⟩
        by_cases hy : y = o
        · subst hy; exact ⟨r, .hit hs hp⟩
        · exact ⟨y, .miss hs hy hp⟩
    | delete hst => exact absurd (.delete hst) h1
    | deleteNamespace hst hns => exact absurd (.deleteNamespace hst hns) h1

open Classical in
/-- C117: what clients are told about the content. -/
theorem C117_reads [StdSort] (ht : t ≠ b!"Float") (hc : Reachable c) (hn : Holds c n (.vector t [x])) (h : Serial pwd c (l ++ q :: l') c')
    (hw : Swapped n t x l y) (ha : Authenticated pwd l q.conn) :
    (Statement q.line n b!"get" [] → ∀ p, q.reply = vectorText p [y]) ∧
    (∀ a o, Statement q.line n b!"contains?" [a] → Denotes t a o → q.reply = truth (y = o)) := by
  obtain ⟨d, s, hs, hr⟩ := read_at h ha
  have hk := C117_content ht hc hn hs hw
  have rd := serial_reachable hc hs
  have hy : HasType t y := (holds_wellTyped rd hk).2 y (by simp)
  constructor
  · intro hq p
    rw [hr _ (justReplies_of rd hk (answers_vec rd hk hq .get))]
    simp only [vectorText, List.map_cons, List.map_nil, repr_nonfloat ht hy d.cfg.prec p]
  · intro a o hq hd
    rw [hr _ (justReplies_of rd hk (answers_vec rd hk hq (.contains hd)))]
    have e := C20_same_elements ht d.cfg.eps hy (denotes_type hd)
    simp only [truth, List.mem_singleton, exists_eq_left, e]

/-- C117: every content comes from a swap that found what it expected. -/
theorem C117_origin (h : Swapped n t x log y) : y = x ∨ ∃ l1 w l2 o, log = l1 ++ w :: l2 ∧ Swap n t o y w ∧ Swapped n t x l1 o := by
  induction h with
  | nil => exact .inl rfl
  | @hit q log o r hw h _ => exact .inr ⟨log, q, [], o, rfl, hw, h⟩
  | @miss q _ _ _ _ _ _ _ ih | @other q _ _ _ _ ih =>
    rcases ih with rfl | ⟨l1, w, l2, o, rfl, h1, h2⟩
    · exact .inl rfl
    · exact .inr ⟨l1, w, l2 ++ [q], o, by simp, h1, h2⟩

/-- C117: so although a swap is answered `null` in any case, a client learns that it succeeded if it finds its value in the cell later, and nobody else writes
this value: then the cell contained what the swap expected. -/
theorem C117_won (h : Swapped n t x (l1 ++ w :: l2) y) (hx : y ≠ x) (hw : Swap n t o y w) (hu : ∀ q ∈ l1 ++ l2, ∀ o, ¬ Swap n t o y q) :
    Swapped n t x l1 o := by
  obtain rfl | ⟨k1, v, k2, o', e, h1, h2⟩ := C117_origin h
  · exact absurd rfl hx
  rcases List.append_eq_append_iff.1 e with ⟨m, rfl, e'⟩ | ⟨m, rfl, e'⟩
  · cases m with
    | nil =>
      cases e'
      rw [(swap_unique hw h1).1]
      simpa using h2
    | cons b m =>
      cases e'
      exact absurd h1 (hu v (by simp) o')
  · cases m with
    | nil =>
      cases e'
      rw [(swap_unique hw h1).1]
      simpa using h2
    | cons b m =>
      cases e'
      exact absurd h1 (hu v (by simp) o')

/-- C117: the content stays as long as no swap expects it. -/
theorem C117_keeps (h1 : Swapped n t x l1 y) (h2 : Swapped n t x (l1 ++ l2) z) (hk : ∀ q ∈ l2, ∀ r, ¬ Swap n t y r q) : z = y := by
  induction l2 using List.reverseRecOn generalizing z with
  | nil => exact C117_unique (by simpa using h2) h1
  | append_singleton l2 q ih =>
    rw [← List.append_assoc] at h2
    obtain ⟨y1, h3, h4⟩ := swapped_snoc h2
    have e := ih h3 fun q hq => hk q (List.mem_append_left _ hq)
    subst e
    rcases h4 with ⟨o, r, hw, ⟨rfl, _⟩ | ⟨_, rfl⟩⟩ | ⟨_, rfl⟩
    · exact absurd hw (hk q (by simp) r)
    · rfl
    · rfl

theorem swapped_prefix (h : Swapped n t x (l1 ++ l2) z) : ∃ y, Swapped n t x l1 y := by
  induction l2 using List.reverseRecOn generalizing z with
  | nil => exact ⟨z, by simpa using h⟩
  | append_singleton l2 q ih =>
    rw [← List.append_assoc] at h
    obtain ⟨y, hy, _⟩ := swapped_snoc h
    exact ih hy

/-- C117: a lock: if each client only replaces `free` by its own name or its own name by something, then whoever is once seen to hold the lock holds it, and
nobody else does, until it releases it. -/
theorem C117_lock [StdSort] {free : Obj} {name : Nat → Obj} {i j : Nat} (ht : t ≠ b!"Float") (hc : Reachable c) (hn : Holds c n (.vector t [x]))
    (h : Serial pwd c (l1 ++ q1 :: (l2 ++ q2 :: l')) c') (hw : Swapped n t x (l1 ++ q1 :: l2) z)
    (hf : ∀ i, name i ≠ free) (hi : Function.Injective name) (hp : ∀ w ∈ l2, ∀ o r, Swap n t o r w → o = free ∨ o = name w.conn)
    (hrel : ∀ w ∈ l2, w.conn = i → ∀ r, ¬ Swap n t (name i) r w)
    (ha1 : Authenticated pwd l1 q1.conn) (ha2 : Authenticated pwd (l1 ++ q1 :: l2) q2.conn)
    (hq1 : Statement q1.line n b!"contains?" [a1]) (hq2 : Statement q2.line n b!"contains?" [a2]) (hd1 : Denotes t a1 (name i)) (hd2 : Denotes t a2 (name j))
    (hr : q1.reply = b!"true") : q2.reply = (if i = j then b!"true" else b!"false") := by
  classical
  obtain ⟨y, hy⟩ := swapped_prefix hw
  have e1 := (C117_reads ht hc hn h hy ha1).2 _ _ hq1 hd1
  rw [hr] at e1
  have e1 := truth_is_true.1 e1.symm
  subst e1
  have hz : z = name i := C117_keeps hy hw (by
    intro q hq r hs
    rcases List.mem_cons.1 hq with rfl | hq
    · obtain ⟨_, b, b', hs, _⟩ := hs
      exact absurd (statement_unique hq1 hs).2.1 (by decide)
    · rcases hp q hq _ _ hs with e | e
      · exact hf i e
      · exact hrel q hq (hi e).symm r hs)
  subst hz
  rw [(C117_reads (l := l1 ++ q1 :: l2) (q := q2) (l' := l') ht hc hn (by simpa using h) hw ha2).2 _ _ hq2 hd2]
  unfold truth
  simp only [hi.eq_iff]

open Classical in
/-- C117: for every schedule of the server. -/
theorem C117_server [StdSort] {es : List Event} {s : Server} (hc : Reachable c) (h : run (Server.init pwd c) es = some (.done s)) :
    ∃ log, Explains pwd c es s log ∧ ∀ n t x l q l', log = l ++ q :: l' → t ≠ b!"Float" → Holds c n (.vector t [x]) → OnlySwaps n l →
      Authenticated pwd l q.conn → ∃ y, Swapped n t x l y ∧
        ∀ a o, Statement q.line n b!"contains?" [a] → Denotes t a o → q.reply = truth (y = o) := by
  obtain ⟨log, hl⟩ := C44_serialized hc h
  refine ⟨log, hl, ?_⟩
  rintro n t x l q l' rfl ht hn hu ha
  obtain ⟨d, hd⟩ := serial_prefix (l1 := l) (l2 := q :: l') hl.serial
  obtain ⟨y, hy⟩ := C117_every_history ht hc hn hd hu
  exact ⟨y, hy, (C117_reads ht hc hn hl.serial hy ha).2⟩

/-! ### A case: a lock that is 0 or the number of the client that holds it -/

def mutexStart : Ctx := { fresh with vars := [(b!"lock", .vector b!"Integer" [.integer 0])] }

theorem mutexStart_reachable [StdSort] : Reachable mutexStart :=
  after_reachable (pwd := []) (s := none) (ts := [b!"Vector<Integer> create: lock;", b!"lock pushBack: 0;"]) fresh_reachable (by kernel_rfl)

theorem mutex_holds : Holds mutexStart b!"lock" (.vector b!"Integer" [.integer 0]) := by decide +kernel

def mutexLog : List Request :=
  [⟨0, b!"lock replaceFirst: 0 with: 1;", b!"null"⟩, ⟨0, b!"lock contains? 1;", b!"true"⟩, ⟨1, b!"lock replaceFirst: 0 with: 2;", b!"null"⟩,
   ⟨1, b!"lock contains? 2;", b!"false"⟩]

theorem mutex_serial [StdSort] : Serial [] mutexStart mutexLog { fresh with vars := [(b!"lock", .vector b!"Integer" [.integer 1])] } :=
  serially_serial (ls := [(0, b!"lock replaceFirst: 0 with: 1;"), (0, b!"lock contains? 1;"), (1, b!"lock replaceFirst: 0 with: 2;"),
    (1, b!"lock contains? 2;")]) .nil (by simp) (by kernel_rfl)

theorem mutex_s0 : Statement b!"lock replaceFirst: 0 with: 1;" b!"lock" b!"replaceFirst:with:" [b!"0", b!"1"] := reads (by kernel_rfl)
theorem mutex_s1 : Statement b!"lock contains? 1;" b!"lock" b!"contains?" [b!"1"] := reads (by kernel_rfl)
theorem mutex_s2 : Statement b!"lock replaceFirst: 0 with: 2;" b!"lock" b!"replaceFirst:with:" [b!"0", b!"2"] := reads (by kernel_rfl)
theorem mutex_s3 : Statement b!"lock contains? 2;" b!"lock" b!"contains?" [b!"2"] := reads (by kernel_rfl)
theorem mutex_0 : Denotes b!"Integer" b!"0" (.integer 0) := .integer (intStr_literal 0) (by decide)
theorem mutex_1 : Denotes b!"Integer" b!"1" (.integer 1) := .integer (intStr_literal 1) (by decide)
theorem mutex_2 : Denotes b!"Integer" b!"2" (.integer 2) := .integer (intStr_literal 2) (by decide)

theorem mutex_take : Swap b!"lock" b!"Integer" (.integer 0) (.integer 1) mutexLog[0] := ⟨topic_null, _, _, mutex_s0, mutex_0, mutex_1⟩
theorem mutex_try : Swap b!"lock" b!"Integer" (.integer 0) (.integer 2) mutexLog[2] := ⟨topic_null, _, _, mutex_s2, mutex_0, mutex_2⟩

theorem mutex_swapped1 : Swapped b!"lock" b!"Integer" (.integer 0) [mutexLog[0]] (.integer 1) := .hit (log := []) mutex_take .nil
theorem mutex_swapped : Swapped b!"lock" b!"Integer" (.integer 0) (mutexLog.take 3) (.integer 1) :=
  .miss (log := [_, _]) mutex_try (by decide) (.other (log := [_]) (.inr (.inl ⟨_, _, mutex_s1, by decide⟩)) mutex_swapped1)

/-- The names of the clients. -/
def mutexName (i : Nat) : Obj := .integer (i + 1)

theorem mutexName_free (i : Nat) : mutexName i ≠ .integer 0 := by
  intro h; simp only [mutexName, Obj.integer.injEq] at h; omega
theorem mutexName_injective : Function.Injective mutexName := by
  intro i j h; simp only [mutexName, Obj.integer.injEq] at h; omega

/-- Client 1 cannot take the lock that client 0 holds. -/
example [StdSort] := C117_lock (i := 0) (j := 1) (name := mutexName) (free := .integer 0) (l1 := [mutexLog[0]]) (q1 := mutexLog[1]) (l2 := [mutexLog[2]])
  (q2 := mutexLog[3]) (l' := []) (by decide) mutexStart_reachable mutex_holds mutex_serial mutex_swapped mutexName_free mutexName_injective
  (fun w hw o r hs => by rw [List.mem_singleton.1 hw] at hs; exact .inl (swap_unique hs mutex_try).1)
  (fun w hw h => by rw [List.mem_singleton.1 hw] at h; exact absurd h (by decide)) (.inl rfl) (.inl rfl) mutex_s1 mutex_s3 mutex_1 mutex_2 rfl

/-- Who finds its number in the cell knows that the cell was free before. -/
example := C117_won (l1 := []) (w := mutexLog[0]) (l2 := [mutexLog[1], mutexLog[2]]) (y := .integer 1) (x := .integer 0) mutex_swapped (by decide) mutex_take (by
  intro q hq o hs
  simp only [List.nil_append, List.mem_cons, List.not_mem_nil, or_false] at hq
  rcases hq with rfl | rfl
  · obtain ⟨_, b, b', hs, _⟩ := hs
    exact absurd (statement_unique mutex_s1 hs).2.1 (by decide)
  · exact absurd (swap_unique hs mutex_try).2 (by decide))

theorem mutex_only : OnlySwaps b!"lock" (mutexLog.take 3) := by
  have nd : ∀ {t m a}, Statement t b!"lock" m a → ¬ Deletes t b!"lock" := by
    intro t m a h hd
    cases hd with
    | delete h' => exact absurd (statement_unique h h').1 (by decide)
    | deleteNamespace h' _ => exact absurd (statement_unique h h').1 (by decide)
  intro q hq _
  simp only [mutexLog, List.take, List.mem_cons, List.not_mem_nil, or_false] at hq
  rcases hq with rfl | rfl | rfl
  · exact ⟨nd mutex_s0, fun _ _ h => .inr (statement_unique h mutex_s0).2.1⟩
  · exact ⟨nd mutex_s1, fun _ _ h => .inl ((statement_unique h mutex_s1).2.1 ▸ by decide)⟩
  · exact ⟨nd mutex_s2, fun _ _ h => .inr (statement_unique h mutex_s2).2.1⟩

example [StdSort] := C117_every_history (by decide) mutexStart_reachable mutex_holds
  (serial_prefix (l1 := mutexLog.take 3) (l2 := mutexLog.drop 3) mutex_serial).choose_spec mutex_only
example [StdSort] := C117_reads (l := mutexLog.take 3) (q := mutexLog[3]) (l' := []) (by decide) mutexStart_reachable mutex_holds mutex_serial mutex_swapped (.inl rfl)
example := C117_keeps mutex_swapped1 (l2 := [mutexLog[1], mutexLog[2]]) mutex_swapped (by
  intro q hq r hs
  simp only [List.mem_cons, List.not_mem_nil, or_false] at hq
  rcases hq with rfl | rfl
  · obtain ⟨_, b, b', hs, _⟩ := hs
    exact absurd (statement_unique mutex_s1 hs).2.1 (by decide)
  · exact absurd (swap_unique hs mutex_try).1 (by decide))

def mutexEvents : List Event := [
  .accept, .accept, .recv 0 b!"lock replaceFirst: 0 with: 1;\n", .read 0, .wrote 0, .recv 1 b!"lock replaceFirst: 0 with: 2;\nlock contains? 2;\n",
  .read 1, .wrote 1, .read 1, .wrote 1]

theorem mutex_run [StdSort] : ∃ s, run (Server.init [] mutexStart) mutexEvents = some (.done s) ∧ s.conns.map Conn.out = [b!"null\n", b!"null\nfalse\n"] :=
  ⟨{ pwd := [], ctx := { fresh with vars := [(b!"lock", .vector b!"Integer" [.integer 1])] }, accepting := true, conns := [
      { sess := ⟨true, true⟩, inbuf := [], phase := .reading, out := b!"null\n" },
      { sess := ⟨true, true⟩, inbuf := [], phase := .reading, out := b!"null\nfalse\n" }] }, by kernel_rfl, rfl⟩

example [StdSort] := C117_server mutexStart_reachable mutex_run.choose_spec.1

end Knuckle.Props
