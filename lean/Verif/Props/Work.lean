/-
C94: the work of executing a request.
-/
import Verif.Proofs.Bisection
import Verif.Spec.Work
import Verif.Props.Storage
import Verif.Props.Cost
import Verif.Props.Sizes
import Verif.Props.Containers

namespace Knuckle.Props

open Spec Work

variable {pwd : Str} {c c' : Ctx} {s s' : Option Session} {text r : Str} {h : List (Str × Str)}

/-- C94: `Work.execute` is `execute`, with a count of its steps, however the library searches and sorts. -/
theorem C94_same [StdSort] [Library] (pwd : Str) (c : Ctx) (s : Option Session) (text : Str) :
    (Work.execute pwd c s text).1 = execute pwd c s text := execute_fst pwd c s text

/-- C94: a statement with any other message than `removeAll:`, `sort` and `listNamespaces` takes at most as many steps as the product of what
is stored and the length of the request, up to a constant factor, besides parsing the request and writing the reply. -/
theorem C94_usual [StdSort] [Library] {a name : Str} {args : List Str} (hs : Statement text a name args)
    (hname : name ∉ [b!"removeAll:", b!"sort", b!"listNamespaces"]) (he : execute pwd c s text = .done (c', s', r)) :
    (Work.execute pwd c s text).2 ≤ 25 * (text.length + 1) ^ 2 + 50 * ((Library.factor + 1) * ((held c + 1) * (text.length + 1))) +
      3 * (r.length + 1) := by
  have h1 := execute_bounded hs he
  have h2 := C58_statements_at_most_quadratic hs
  have h3 : extra name (varsSize c.vars) = 0 := by
    simp only [List.mem_cons, List.not_mem_nil, or_false, not_or] at hname
    unfold extra
    rw [if_neg hname.1, if_neg hname.2.1, if_neg hname.2.2]
  have h4 := Nat.mul_le_mul_left (Library.factor + 1) (Nat.mul_le_mul_right (text.length + 1) (Nat.succ_le_succ (varsSize_le c)))
  unfold held
  simp only [Nat.succ_eq_add_one] at h4
  omega

theorem extra_le [Library] (name : Str) (W : Nat) :
    extra name W ≤ 2 * ((Library.factor + 1) * ((W + 1) ^ 2 * (Nat.log2 W + 1))) := by
  have hL : 1 ≤ Nat.log2 W + 1 := Nat.succ_pos _
  unfold extra
  generalize Nat.log2 W + 1 = L at *
  generalize Library.factor = f
  have e : 2 * ((f + 1) * ((W + 1) ^ 2 * L)) = 2 * (f * (L * (W * W))) + 4 * (f * (L * W)) + 2 * (f * L) + (2 * (L * (W * W)) + 4 * (L * W) + 2 * L) := by ring
  have h1 : W * W ≤ L * (W * W) := Nat.le_mul_of_pos_left _ hL
  rw [e]
  split
  · omega
  · split
    · have : f * (W * L) * (2 * W + 1) = 2 * (f * (L * (W * W))) + f * (L * W) := by ring
      omega
    · split
      · have : W * (W + f * L * W) = W * W + f * (L * (W * W)) := by ring
        omega
      · exact Nat.zero_le _

/-- C94: every request takes at most polynomially many steps: the cube of its length, the product of its length and what is stored, the
square of what is stored with a logarithmic factor, and the length of the reply. -/
theorem C94_at_most [StdSort] [Library] (he : execute pwd c s text = .done (c', s', r)) :
    (Work.execute pwd c s text).2 ≤ 20 * (text.length + 1) ^ 3 +
      52 * ((Library.factor + 1) * ((held c + 1) * (text.length + 1))) +
      2 * ((Library.factor + 1) * ((held c + 1) ^ 2 * (Nat.log2 (held c) + 1))) + 3 * (r.length + 1) := by
  have h2 := C58_at_most_cubic text
  have hP : text.length + 1 ≤ (Library.factor + 1) * ((held c + 1) * (text.length + 1)) :=
    Nat.le_trans (Nat.le_mul_of_pos_left _ (Nat.succ_pos _)) (Nat.le_mul_of_pos_left _ (Nat.succ_pos _))
  by_cases hs : ∃ a name args, Statement text a name args
  · obtain ⟨a, name, args, hs⟩ := hs
    have h1 := execute_bounded hs he
    have h3 := Nat.le_trans (extra_mono name (varsSize_le c)) (extra_le name _)
    have h4 := Nat.mul_le_mul_left (Library.factor + 1) (Nat.mul_le_mul_right (text.length + 1) (Nat.succ_le_succ (varsSize_le c)))
    unfold held
    simp only [Nat.succ_eq_add_one] at h4
    omega
  · have h1 := execute_refused hs he
    omega

/-- C94: after any history of a server that began empty, in terms of what it was sent. -/
theorem C94_after [StdSort] [Library] {c₀ : Ctx} (h₀ : Reachable c₀) (he : c₀.vars = []) (hh : History c₀ h c)
    (hx : execute pwd c s text = .done (c', s', r)) :
    ∃ N, N ≤ (3 + 2 * sentBytes h) * h.length ∧ (Work.execute pwd c s text).2 ≤ 20 * (text.length + 1) ^ 3 +
      52 * ((Library.factor + 1) * ((N + 1) * (text.length + 1))) +
      2 * ((Library.factor + 1) * ((N + 1) ^ 2 * (Nat.log2 N + 1))) + 3 * (r.length + 1) := by
  refine ⟨held c, ?_, C94_at_most hx⟩
  have h1 := C59_stored_bytes h₀ he hh
  have h2 := C59_objects h₀ hh
  have h3 : cells c₀ = 0 := by unfold cells; rw [he]; rfl
  have e : (3 + 2 * sentBytes h) * h.length = 3 * h.length + 2 * h.length * sentBytes h := by ring
  unfold held
  omega

/-- C94: the messages to a set other than `get` and `clear` take logarithmically many comparisons: in a set whose elements have at most `B - 1`
bytes. -/
theorem C94_sets [StdSort] [Library] (hc : Reachable c) {n name t : Str} {args : List Str} {l : List Obj} {B : Nat}
    (hn : Holds c n (.set t l)) (hs : Statement text n name args) (hname : name ∉ [b!"get", b!"clear"])
    (hB : ∀ x ∈ l, bulk x ≤ B) (he : execute pwd c s text = .done (c', s', r)) :
    (Work.execute pwd c s text).2 ≤ 45 * (text.length + 1) ^ 2 +
      Library.factor * (Nat.log2 c.vars.length + 1) * (text.length + 1) +
      Library.factor * (Nat.log2 l.length + 1) * (B + (text.length + 1)) + 3 * (r.length + 1) := by
  have h2 := C58_statements_at_most_quadratic hs
  have h3 : text.length + 1 ≤ (text.length + 1) ^ 2 := Nat.le_self_pow (by decide) _
  have h1 := set_search (reachable_inv hc) hn hs (by simpa using hname) (B := B) (fun x hx => by rw [size_text]; exact hB x hx) he
  omega

/-- C94: likewise the messages to a dictionary other than `get`, `keys`, `values` and `clear`, whose keys have at most `B - 1` and values at
most `V - 1` bytes. -/
theorem C94_dictionaries [StdSort] [Library] (hc : Reachable c) {n name t u : Str} {args : List Str} {l : List (Obj × Obj)} {B V : Nat}
    (hn : Holds c n (.dictionary t u l)) (hs : Statement text n name args) (hname : name ∉ [b!"get", b!"keys", b!"values", b!"clear"])
    (hB : ∀ x ∈ l, bulk x.1 ≤ B) (hV : ∀ x ∈ l, bulk x.2 ≤ V) (he : execute pwd c s text = .done (c', s', r)) :
    (Work.execute pwd c s text).2 ≤ 45 * (text.length + 1) ^ 2 +
      Library.factor * (Nat.log2 c.vars.length + 1) * (text.length + 1) +
      Library.factor * (Nat.log2 l.length + 1) * (B + (text.length + 1)) + V + 3 * (r.length + 1) := by
  have h2 := C58_statements_at_most_quadratic hs
  have h3 : text.length + 1 ≤ (text.length + 1) ^ 2 := Nat.le_self_pow (by decide) _
  have h1 := dict_search (reachable_inv hc) hn hs (by simpa using hname) (B := B) (V := V) (fun x hx => by rw [size_text]; exact hB x hx)
    (fun x hx => by rw [size_text]; exact hV x hx) he
  omega

/-- C94: `removeAll:` to a vector is quadratic: there are `m + 1` accepted requests of together `15 m + 25` bytes after which one request of
16 bytes takes at least m² / 2 steps.  (Each match moves all elements behind it, `src/instance.cpp:1398-1402`.) -/
theorem C94_quadratic_is_reached [StdSort] [Library] (m : Nat) : ∃ ts c' c'', Accepted [] none fresh ts c' ∧ ts.length = m + 1 ∧
    (ts.map List.length).sum = 15 * m + 25 ∧ Replies [] c' none b!"v removeAll: \"\";" b!"null" c'' ∧
    m * m ≤ 2 * (Work.execute [] c' none b!"v removeAll: \"\";").2 := by
  obtain ⟨c0, h0, hv0⟩ : ∃ c0, Replies [] fresh none b!"Vector<String> create: v;" b!"null" c0 ∧
      c0.vars = [(b!"v", .vector b!"String" [])] := ⟨{ fresh with vars := [(b!"v", .vector b!"String" [])] }, by unfold Replies; kernel_rfl, rfl⟩
  have r0 : Reachable c0 := .step fresh_reachable h0
  obtain ⟨c1, h1, hv1⟩ := pushes (pwd := []) (s := none) m 0 r0 hv0
  have r1 := h1.reachable r0
  rw [Nat.zero_add] at hv1
  have hn : Holds c1 b!"v" (.vector b!"String" (List.replicate m (.string []))) := by unfold Holds; rw [hv1]; rfl
  have hst : Statement b!"v removeAll: \"\";" b!"v" b!"removeAll:" [b!"\"\""] := reads (by decide +kernel)
  obtain ⟨c2, h2, h3⟩ := answers_vec (pwd := []) (s := none) r1 hn hst (.removeAll empty_literal)
  refine ⟨b!"Vector<String> create: v;" :: List.replicate m pushText, c1, c2, .cons h0 h1, by simp, ?_, h2, ?_⟩
  · simp only [List.map_cons, List.sum_cons, List.map_replicate, List.sum_replicate_nat]
    have e1 : b!"Vector<String> create: v;".length = 25 := by decide
    have e2 : pushText.length = 15 := by decide
    rw [e1, e2]; omega
  · have h4 := (execute_variable (reachable_inv r1) hn hst h2).1
    rw [h4]
    have h5 := removeAllLoop_lower c1.cfg.eps (.string []) m rfl []
    have h6 : (Work.vecRemoveAll c1.cfg b!"String" (List.replicate m (.string [])) [b!"\"\""]).2 ≤
        (Work.receive c1.cfg (.vector b!"String" (List.replicate m (.string []))) b!"removeAll:" [b!"\"\""]).2 := dispatch_hit rfl
    have h7 : (Work.removeAllLoop c1.cfg.eps (.string []) [] (List.replicate m (.string []))).2 ≤
        (Work.vecRemoveAll c1.cfg b!"String" (List.replicate m (.string [])) [b!"\"\""]).2 := Nat.le_add_left _ _
    omega

/-- C94: whereas vectors are searched element by element: to find out that a value is not in a vector takes at least one step for each
element. -/
theorem C94_vectors [StdSort] [Library] (hc : Reachable c) {n t a : Str} {l : List Obj} {o : Obj} (hn : Holds c n (.vector t l))
    (hs : Statement text n b!"contains?" [a]) (ha : Denotes t a o) (he : execute pwd c s text = .done (c', s', b!"false")) :
    l.length ≤ (Work.execute pwd c s text).2 := by
  have hi := reachable_inv hc
  obtain ⟨h1, h2⟩ := execute_variable hi hn hs he
  rw [h1]
  have hl := (hi.wellTyped hn).2
  have hg := (gsi_denotes t a o ha).1
  have h6 : (Work.vecContains c.cfg t l [a]).2 ≤ (Work.receive c.cfg (.vector t l) b!"contains?" [a]).2 := dispatch_hit rfl
  have h7 : (Work.receive c.cfg (.vector t l) b!"contains?" [a]).1 = wrap (.vector t) (vecContains c.cfg t l [a]) := by
    rw [receive_fst]; rfl
  have h8 : Work.vecContains c.cfg t l [a] = ((do
      let o ← literal t a
      let r ← Work.findFrom c.cfg.eps o l 0
      answer l (boolStr r.isSome) : Work (List Obj × Str)).res.run l, (do
      let o ← literal t a
      let r ← Work.findFrom c.cfg.eps o l 0
      answer l (boolStr r.isSome) : Work (List Obj × Str)).steps) := rfl
  have key : ∀ (m : List Obj) (i : Nat), (Work.findFrom c.cfg.eps o m i).res = .ok none → m.length ≤ (Work.findFrom c.cfg.eps o m i).steps := by
    intro m
    induction m with
    | nil => intro i _; exact Nat.zero_le _
    | cons x xs ih =>
      intro i hm
      simp only [Work.findFrom, bind_res, spend_res, free_res, Res.bind_ok] at hm
      have hp := size_pos x
      cases hx : equalTo c.cfg.eps x o with
      | ok b =>
        rw [hx] at hm
        cases b with
        | true => cases hm
        | false =>
          have := ih (i + 1) hm
          simp only [Work.findFrom]
          rw [bind_ok_steps (a := ()) rfl, bind_ok_steps (a := false) hx]
          simp only [spend_steps, free_steps, Bool.false_eq_true, if_false, Work.compare, List.length_cons]
          omega
      | err e => rw [hx] at hm; cases hm
      | ub => rw [hx] at hm; cases hm
  cases hf : (Work.findFrom c.cfg.eps o l 0).res with
  | ok b =>
    cases b with
    | none =>
      have h9 := key l 0 hf
      have h10 : (Work.findFrom c.cfg.eps o l 0).steps ≤ (Work.vecContains c.cfg t l [a]).2 := by
        rw [h8, bind_ok_steps (a := o) hg, bind_ok_steps hf]
        omega
      omega
    | some k =>
      exfalso
      have h9 : vecContains c.cfg t l [a] = .ret l b!"true" := by
        have : Knuckle.findFrom c.cfg.eps o l 0 = .ok (some k) := by rw [← findFrom_res]; exact hf
        simp only [vecContains, op1, hg, this, Res.bind_ok]; rfl
      rw [h9] at h7
      have := h2 _ _ h7
      cases this
  | err e => rw [findFrom_res, findFrom_eq (gsi_denotes t a o ha).2 l hl] at hf; cases hf
  | ub => rw [findFrom_res, findFrom_eq (gsi_denotes t a o ha).2 l hl] at hf; cases hf

/-- C94: `Work.step` is the server, with a count of the steps of each event. -/
theorem C94_same_server [StdSort] [Library] (s : Server) (e : Event) : (Work.step s e).map (·.1) = step s e := by
  have key : ∀ i c line rest, (Work.handleLine s i c line rest).1 = handleLine s i c line rest := by
    intro i c line rest
    simp only [Work.handleLine, handleLine, parseC_fst, execute_fst]
    cases parse line with
    | ub => rfl
    | err e =>
      simp only
      split
      · rcases execute s.pwd s.ctx (some c.sess) line with ⟨_, _ | _, _⟩ | _ <;> rfl
      · rfl
    | ok q =>
      simp only
      split
      · rcases execute s.pwd s.ctx (some c.sess) line with ⟨_, _ | _, _⟩ | _ <;> rfl
      · rfl
  cases e with
  | read i =>
    simp only [Work.step, step]
    cases s.conns[i]? with
    | none => rfl
    | some k =>
      by_cases hr : k.phase = .reading
      · simp only [hr, if_true]
        cases splitLine k.inbuf with
        | none => rfl
        | some x => exact congrArg some (key _ _ _ _)
      · simp only [hr, if_false]; rfl
  | _ => simp only [Work.step, Option.map_map]; exact Option.map_id'

/-- What a `read` does. -/
theorem step_read [StdSort] [Library] {s : Server} {e : Event} {o : Outcome Server} {w : Nat} (h : Work.step s e = some (o, w)) :
    w = 0 ∨ ∃ i k line rest, e = .read i ∧ s.conns[i]? = some k ∧ k.inbuf = line ++ (10 : Byte) :: rest ∧
      Work.handleLine s i k line rest = (o, w) ∧ k.phase = .reading ∧ splitLine k.inbuf = some (line, rest) := by
  cases e with
  | read i =>
    right
    simp only [Work.step] at h
    cases hk : s.conns[i]? with
    | none => rw [hk] at h; cases h
    | some k =>
      rw [hk] at h
      by_cases hr : k.phase = .reading
      · simp only [hr, if_true] at h
        cases hs : splitLine k.inbuf with
        | none => rw [hs] at h; cases h
        | some x =>
          obtain ⟨line, rest⟩ := x
          rw [hs] at h
          exact ⟨i, k, line, rest, rfl, hk, (splitLine_some hs).1, Option.some.inj h, hr, hs⟩
      · simp only [hr, if_false] at h; cases h
  | _ =>
    left
    simp only [Work.step, Option.map_eq_some_iff] at h
    obtain ⟨_, _, h⟩ := h
    exact (congrArg Prod.snd h).symm

theorem text_length (e : Exc) : e.text.length ≤ 52 := by cases e <;> decide

/-- C94: what a client that has not authenticated can make the server do depends on the length of what it sent, and on nothing that is stored:
an event of its connection takes at most 200 (n + 1)³ steps. -/
theorem C94_strangers [StdSort] [Library] {s s' : Server} {i : Nat} {k : Conn} {w : Nat} (hk : s.conns[i]? = some k)
    (ha : k.sess.authed = false) (h : Work.step s (.read i) = some (.done s', w)) : w ≤ 200 * (k.inbuf.length + 1) ^ 3 := by
  rcases step_read h with rfl | ⟨i', k', line, rest, hi, hk', hb, hx, _⟩
  · exact Nat.zero_le _
  cases hi
  rw [hk] at hk'
  cases hk'
  have hl : line.length ≤ k.inbuf.length := by rw [hb]; simp
  have hc := C58_at_most_cubic line
  have hp := Nat.pow_le_pow_left (Nat.add_le_add_right hl 1) 3
  have h1 : line.length + 1 ≤ (line.length + 1) ^ 3 := Nat.le_self_pow (by decide) _
  simp only [Work.handleLine, ha, Bool.false_or] at hx
  cases hq : (parseC line).1 with
  | ub => rw [hq] at hx; cases hx
  | err e =>
    rw [hq] at hx
    simp only [show isConnection [] = false by decide, Bool.false_eq_true, if_false] at hx
    have := congrArg Prod.snd hx
    simp only at this
    omega
  | ok q =>
    rw [hq] at hx
    simp only at hx
    by_cases hcn : isConnection q.actor = true
    · simp only [hcn, if_true] at hx
      have hw := congrArg Prod.snd hx
      simp only at hw
      have hs : Statement line q.actor q.name q.args := by
        rw [parseC_fst] at hq; exact (parse_iff line q).1 hq
      have hz := statement_sizes hs
      have e0 := (isConnection_eq _).1 hcn
      have n1 : isType q.actor = false := by rw [e0]; decide
      have n2 : isContext q.actor = false := by rw [e0]; decide
      have n3 : isVariable q.actor = false := by rw [e0]; decide
      have e1 : (q.args.map fun a => a.length + 1).sum = argsSize q.args := rfl
      have hsteps : (Work.execute s.pwd s.ctx (some k.sess) line).2 ≤ (parseC line).2 + 130 * (line.length + 1) := by
        have hex : executeParsed s.pwd s.ctx (some k.sess) q = onConn s.ctx (k.sess.receive s.pwd q.name q.args) :=
          executeParsed_connection _ _ _ _ hcn
        have hr : ∀ x : Run Session, x = k.sess.receive s.pwd q.name q.args → replyLength x ≤ 52 := by
          intro x hx
          cases x with
          | ret s' r =>
            have : r = b!"null" := by
              unfold Session.receive at hx
              split at hx
              · cases hx; rfl
              · split at hx
                · rcases hargs : q.args with _ | ⟨a, _ | _⟩ <;> rw [hargs] at hx
                  · cases hx
                  · simp only [op1] at hx
                    split at hx
                    · cases hx
                    · cases hv : stringLit a with
                      | ok v =>
                        rw [hv] at hx
                        simp only [Res.bind_ok] at hx
                        split at hx
                        · cases hx; rfl
                        · cases hx
                      | err e => rw [hv] at hx; cases hx
                      | ub => rw [hv] at hx; cases hx
                  · cases hx
                · cases hx
            rw [this]; simp [replyLength]
          | thr => exact Nat.zero_le _
          | ub => exact Nat.zero_le _
        have hr' := hr _ rfl
        simp only [Work.execute, hq]
        simp only [Work.executeParsed, n1, n2, n3, e1, Bool.false_eq_true, if_false, hex]
        revert hr'
        rcases k.sess.receive s.pwd q.name q.args with ⟨s₁, r⟩ | ⟨s₁, e⟩ | _
        · intro hr'; simp only [onConn, replyLength] at hr' ⊢; omega
        · intro _; have := text_length e; simp only [onConn]; omega
        · intro _; simp only [onConn]; omega
      omega
    · simp only [hcn, if_false] at hx
      have := congrArg Prod.snd hx
      simp only [Bool.false_eq_true, if_false] at this
      omega

/-- C94: an event takes at most the steps to parse the line once more and to execute it. -/
theorem C94_per_event [StdSort] [Library] {s : Server} {e : Event} {o : Outcome Server} {w : Nat} (h : Work.step s e = some (o, w)) :
    w = 0 ∨ ∃ i k line rest, e = .read i ∧ s.conns[i]? = some k ∧ k.inbuf = line ++ (10 : Byte) :: rest ∧ (10 : Byte) ∉ line ∧
      w ≤ 20 * (line.length + 1) ^ 3 + (Work.execute s.pwd s.ctx (some k.sess) line).2 := by
  rcases step_read h with rfl | ⟨i, k, line, rest, hi, hk, hb, hx, _, hsp⟩
  · exact .inl rfl
  refine .inr ⟨i, k, line, rest, hi, hk, hb, (splitLine_some hsp).2, ?_⟩
  have hc := C58_at_most_cubic line
  have hw := congrArg Prod.snd hx
  simp only [Work.handleLine] at hw
  rw [← hw]
  split
  · split
    · simp only; omega
    · simp only; omega
  · simp only; omega

/-- C94: `Work.run` is the server, with a count of all steps. -/
theorem C94_same_run [StdSort] [Library] (s : Server) (es : List Event) : (Work.run s es).map (·.1) = run s es := by
  induction es generalizing s with
  | nil => rfl
  | cons e es ih =>
    have h := C94_same_server s e
    simp only [Work.run, run]
    rw [← h]
    rcases Work.step s e with _ | ⟨_ | s', w⟩
    · rfl
    · simp only [Option.map_some, ← ih, Option.map_map]; rfl
    · rfl

theorem log2_square {a N : Nat} (ha : 1 ≤ a) (h : N + 1 ≤ 2 * a ^ 2) : Nat.log2 N + 1 ≤ 3 * (Nat.log2 a + 1) := by
  have h1 : a < 2 ^ (Nat.log2 a + 1) := Nat.lt_log2_self
  by_cases hN : N = 0
  · subst hN; simp; omega
  have h2 : N < 2 ^ (2 * (Nat.log2 a + 1) + 1) := by
    have h3 : a ^ 2 ≤ (2 ^ (Nat.log2 a + 1)) ^ 2 := Nat.pow_le_pow_left (Nat.le_of_lt h1) 2
    have h4 : 2 ^ (2 * (Nat.log2 a + 1) + 1) = 2 * (2 ^ (Nat.log2 a + 1)) ^ 2 := by rw [← pow_mul, pow_succ]; ring_nf
    rw [h4]; omega
  have h5 := (Nat.log2_lt hN).2 h2
  omega

/-- The steps of one request when `A` bytes have arrived. -/
def each (f A : Nat) : Nat := 200 * (A + 1) ^ 3 + 104 * (f + 1) * (A + 1) ^ 3 + 24 * (f + 1) * (A + 1) ^ 4 * (Nat.log2 (A + 1) + 1)

theorem held_le [StdSort] {es : List Event} {s : Server} {log : List Request} (hc : Reachable c) (h0 : c.vars = []) (h : Explains pwd c es s log) :
    held s.ctx + 1 ≤ 2 * (arrived es + 1) ^ 2 := by
  obtain ⟨x, hx, hs⟩ := serial_sublist h.serial
  have h1 := log_total h
  have h2 := sublist_sum hs
  rw [List.map_map] at h2
  simp only [List.map_map, List.length_map] at h2
  have h3 : x.length + sentBytes x ≤ arrived es := le_trans h2 h1
  have h4 := C59_stored_bytes hc h0 hx
  have h5 := C59_objects hc hx
  have h6 : cells c = 0 := by unfold cells; rw [h0]; rfl
  have h7 : 2 * x.length * sentBytes x ≤ (x.length + sentBytes x) ^ 2 := by nlinarith
  have h8 : (x.length + sentBytes x) ^ 2 ≤ arrived es ^ 2 := Nat.pow_le_pow_left h3 2
  have h9 : 2 * (arrived es + 1) ^ 2 = 2 * arrived es ^ 2 + 4 * arrived es + 2 := by ring
  unfold held
  omega

theorem arrived_append (es es' : List Event) : arrived (es ++ es') = arrived es + arrived es' := by
  induction es with
  | nil => simp [arrived]
  | cons e es ih => cases e <;> simp only [List.cons_append, arrived, ih] <;> omega

theorem inbuf_le [StdSort] {es : List Event} {s : Server} {log : List Request} {i : Nat} {k : Conn} (h : Explains pwd c es s log)
    (hk : s.conns[i]? = some k) : k.inbuf.length ≤ arrived es := by
  have h7 := h.input i _ hk
  have h8 := received_total es (i + 1)
  simp only [List.range_succ, List.map_append, List.map_cons, List.map_nil, List.sum_append, List.sum_cons, List.sum_nil] at h8
  rw [h7, List.length_append] at h8
  omega

theorem cube_le {n A : Nat} (h : n ≤ A) : (n + 1) ^ 3 ≤ (A + 1) ^ 3 := Nat.pow_le_pow_left (by omega) 3

/-- One event, with what it adds to the log. -/
theorem one_event [StdSort] [Library] {es : List Event} {s s' : Server} {log : List Request} {e : Event} {w A : Nat} (hc : Reachable c)
    (h0 : c.vars = []) (h : Explains pwd c es s log) (hst : Work.step s e = some (.done s', w)) (hA : arrived es ≤ A) :
    ∃ log', Explains pwd c (es ++ [e]) s' (log ++ log') ∧
      w ≤ (log'.map fun q => each Library.factor A + 3 * (q.reply.length + 1)).sum := by
  have hst' : step s e = some (.done s') := by rw [← C94_same_server, hst]; rfl
  rcases step_read hst with rfl | ⟨i, k, line, rest, rfl, hk, hb, hx, hp, hl⟩
  · obtain ⟨log', hl⟩ := explains_step hc h hst'
    exact ⟨log', hl, Nat.zero_le _⟩
  have hin := inbuf_le h hk
  have hlen : line.length ≤ A := by rw [hb] at hin; simp at hin; omega
  have hh : handleLine s i k line rest = .done s' := by
    simp only [step, hk, hp, if_true, hl] at hst'
    exact Option.some.inj hst'
  obtain ⟨r, h1, h2⟩ := explains_read hc h hk hp hl hh
  refine ⟨_, h1, ?_⟩
  simp only [List.map_cons, List.map_nil, List.sum_cons, List.sum_nil, Nat.add_zero]
  by_cases ha : k.sess.authed = true
  · obtain ⟨c', t, he⟩ := h2.resolve_left fun h => h.1 ha
    have h3 := C94_at_most he
    have h4 : w ≤ 20 * (line.length + 1) ^ 3 + (Work.execute s.pwd s.ctx (some k.sess) line).2 := by
      rcases C94_per_event hst with rfl | ⟨i', k', line', rest', hi', hk', hb', hn', hw⟩
      · exact Nat.zero_le _
      · cases hi'
        rw [hk] at hk'
        cases hk'
        have : line' = line := by
          rw [hb', splitLine_append _ _ hn'] at hl
          exact congrArg Prod.fst (Option.some.inj hl)
        rw [← this]; exact hw
    have h5 := held_le hc h0 h
    have h6 : 2 * (arrived es + 1) ^ 2 ≤ 2 * (A + 1) ^ 2 := Nat.mul_le_mul_left 2 (Nat.pow_le_pow_left (by omega) 2)
    have h7 := log2_square (a := A + 1) (by omega) (Nat.le_trans h5 h6)
    have h8 := cube_le hlen
    have h9 : (held s.ctx + 1) * (line.length + 1) ≤ 2 * (A + 1) ^ 3 := by
      have := Nat.mul_le_mul (Nat.le_trans h5 h6) (Nat.succ_le_succ hlen)
      have e : 2 * (A + 1) ^ 2 * (A + 1) = 2 * (A + 1) ^ 3 := by ring
      simp only [Nat.succ_eq_add_one] at this
      omega
    have h10 : (held s.ctx + 1) ^ 2 * (Nat.log2 (held s.ctx) + 1) ≤ 12 * ((A + 1) ^ 4 * (Nat.log2 (A + 1) + 1)) := by
      have := Nat.mul_le_mul (Nat.pow_le_pow_left (Nat.le_trans h5 h6) 2) h7
      have e : (2 * (A + 1) ^ 2) ^ 2 * (3 * (Nat.log2 (A + 1) + 1)) = 12 * ((A + 1) ^ 4 * (Nat.log2 (A + 1) + 1)) := by ring
      omega
    have h11 := Nat.mul_le_mul_left (Library.factor + 1) h9
    have h12 := Nat.mul_le_mul_left (Library.factor + 1) h10
    have e1 : 104 * (Library.factor + 1) * (A + 1) ^ 3 = 52 * ((Library.factor + 1) * (2 * (A + 1) ^ 3)) := by ring
    have e2 : 24 * (Library.factor + 1) * (A + 1) ^ 4 * (Nat.log2 (A + 1) + 1) =
      2 * ((Library.factor + 1) * (12 * ((A + 1) ^ 4 * (Nat.log2 (A + 1) + 1)))) := by ring
    unfold each
    rw [e1, e2]
    omega
  · have := C94_strangers hk (by simpa using ha) hst
    have h3 := cube_le (Nat.le_trans hin hA)
    unfold each
    generalize 104 * (Library.factor + 1) * (A + 1) ^ 3 = x
    generalize 24 * (Library.factor + 1) * (A + 1) ^ 4 * (Nat.log2 (A + 1) + 1) = y
    omega

/-- From a state on. -/
theorem many_events [StdSort] [Library] {es' es : List Event} {s s' : Server} {log : List Request} {w A : Nat} (hc : Reachable c)
    (h0 : c.vars = []) (h : Explains pwd c es s log) (hr : Work.run s es' = some (.done s', w)) (hA : arrived (es ++ es') ≤ A) :
    ∃ log', Explains pwd c (es ++ es') s' (log ++ log') ∧
      w ≤ (log'.map fun q => each Library.factor A + 3 * (q.reply.length + 1)).sum := by
  induction es' generalizing es s log w with
  | nil => cases hr; exact ⟨[], by simpa using h, Nat.zero_le _⟩
  | cons e es' ih =>
    simp only [Work.run] at hr
    cases hst : Work.step s e with
    | none => rw [hst] at hr; cases hr
    | some x =>
      obtain ⟨o, v⟩ := x
      rw [hst] at hr
      cases o with
      | ub => cases hr
      | done s1 =>
        simp only [Option.map_eq_some_iff] at hr
        obtain ⟨⟨o, u⟩, hr, hx⟩ := hr
        cases hx
        obtain ⟨l1, h1, w1⟩ := one_event (A := A) hc h0 h hst (by rw [arrived_append] at hA; omega)
        obtain ⟨l2, h2, w2⟩ := ih h1 hr (by simpa using hA)
        refine ⟨l1 ++ l2, by simpa using h2, ?_⟩
        rw [List.map_append, List.sum_append]
        omega

/-- C94: all the work of a server that was started empty, from the beginning, is bounded by the number of bytes it received and the number of
bytes it replied: 328 (A + 1)⁵ (log₂ (A + 1) + 1) steps (times the constant of the library), and three for each byte of a reply. -/
theorem C94_total [StdSort] [Library] {es : List Event} {s : Server} {w : Nat} (hc : Reachable c) (h0 : c.vars = [])
    (h : Work.run (Server.init pwd c) es = some (.done s, w)) :
    ∃ log, Explains pwd c es s log ∧
      w ≤ 328 * ((Library.factor + 1) * ((arrived es + 1) ^ 5 * (Nat.log2 (arrived es + 1) + 1))) +
        3 * (log.map fun q => q.reply.length + 1).sum := by
  obtain ⟨log, h1, h2⟩ := many_events (A := arrived es) hc h0 (explains_init pwd c) h (by simp)
  simp only [List.nil_append] at h1
  refine ⟨log, h1, Nat.le_trans h2 ?_⟩
  have h3 := log_total h1
  have h4 : log.length ≤ arrived es := by
    refine le_trans ?_ h3
    clear h1 h2 h3
    induction log with
    | nil => simp
    | cons q l ih => simp only [List.length_cons, List.map_cons, List.sum_cons]; omega
  generalize arrived es = A at *
  have h5 : (log.map fun q => each Library.factor A + 3 * (q.reply.length + 1)).sum =
      log.length * each Library.factor A + 3 * (log.map fun q => q.reply.length + 1).sum := by
    clear h1 h2 h3 h4
    induction log with
    | nil => simp
    | cons q l ih => simp only [List.length_cons, List.map_cons, List.sum_cons, ih]; ring
  rw [h5]
  have h6 : log.length * each Library.factor A ≤ (A + 1) * each Library.factor A := Nat.mul_le_mul_right _ (by omega)
  have h7 : (A + 1) * each Library.factor A ≤ 328 * ((Library.factor + 1) * ((A + 1) ^ 5 * (Nat.log2 (A + 1) + 1))) := by
    unfold each
    generalize Nat.log2 (A + 1) = L
    generalize Library.factor = f
    have e : (A + 1) * (200 * (A + 1) ^ 3 + 104 * (f + 1) * (A + 1) ^ 3 + 24 * (f + 1) * (A + 1) ^ 4 * (L + 1)) =
      200 * (A + 1) ^ 4 + 104 * ((f + 1) * (A + 1) ^ 4) + 24 * ((f + 1) * ((A + 1) ^ 5 * (L + 1))) := by ring
    rw [e]
    have p1 : (A + 1) ^ 4 ≤ (A + 1) ^ 5 := Nat.pow_le_pow_right (by omega) (by decide)
    have p2 : (A + 1) ^ 4 ≤ (A + 1) ^ 5 * (L + 1) := Nat.le_trans p1 (Nat.le_mul_of_pos_right _ (Nat.succ_pos _))
    have p3 : (f + 1) * (A + 1) ^ 4 ≤ (f + 1) * ((A + 1) ^ 5 * (L + 1)) := Nat.mul_le_mul_left _ p2
    have p4 : (A + 1) ^ 4 ≤ (f + 1) * (A + 1) ^ 4 := Nat.le_mul_of_pos_left _ (Nat.succ_pos _)
    omega
  omega

/-! Concrete cases. -/

/-- A search in a set of two strings, by bisection: the hypotheses of `C94_same`, `C94_usual`, `C94_at_most` and `C94_sets` are met. -/
example [StdSort] : ∃ c', Reachable demo ∧ Holds demo b!"t" (.set b!"String" [.string b!"x", .string b!"y"]) ∧
    Statement b!"t contains? \"y\";" b!"t" b!"contains?" [b!"\"y\""] ∧ (∀ x ∈ [Obj.string b!"x", .string b!"y"], bulk x ≤ 2) ∧
    execute [] demo none b!"t contains? \"y\";" = .done (c', none, b!"true") ∧ @Work.searching bisection
      [Obj.string b!"x", .string b!"y"] (.string b!"y") = 8 :=
  ⟨demo, demo_reachable, by decide +kernel, reads (by kernel_rfl), by decide +kernel, by kernel_rfl, by decide +kernel⟩

/-- An association in a dictionary. -/
example [StdSort] : ∃ c', Holds demo b!"d" (.dictionary b!"Character" b!"Integer" [(.character c!"k", .integer 1)]) ∧
    Statement b!"d associateValue: 5 withKey: 'z';" b!"d" b!"associateValue:withKey:" [b!"5", b!"'z'"] ∧
    execute [] demo none b!"d associateValue: 5 withKey: 'z';" = .done (c', none, b!"null") :=
  ⟨demoWith b!"d" (.dictionary b!"Character" b!"Integer" [(.character c!"k", .integer 1), (.character c!"z", .integer 5)]),
    by decide +kernel, reads (by kernel_rfl), by kernel_rfl⟩

/-- A value that is not in a vector. -/
example [StdSort] : ∃ c', Holds demo b!"v" (.vector b!"Integer" [.integer 3, .integer 1, .integer 2]) ∧
    Statement b!"v contains? 9;" b!"v" b!"contains?" [b!"9"] ∧ Denotes b!"Integer" b!"9" (.integer 9) ∧
    execute [] demo none b!"v contains? 9;" = .done (c', none, b!"false") :=
  ⟨demo, by decide +kernel, reads (by kernel_rfl), lit_int (by decide +kernel) (by decide +kernel) (by decide), by kernel_rfl⟩

/-- The server of the other examples: its work, by the bytes it received. -/
example [StdSort] [Library] : ∃ w, Work.run (Server.init b!"pw" fresh) demoEvents = some (.done demoServer, w) ∧ arrived demoEvents = 137 := by
  have h := C94_same_run (Server.init b!"pw" fresh) demoEvents
  rw [demo_run] at h
  simp only [Option.map_eq_some_iff] at h
  obtain ⟨⟨o, w⟩, h1, rfl⟩ := h
  exact ⟨w, h1, by decide +kernel⟩

/-- A stranger asks for the value of a variable. -/
example [StdSort] [Library] : ∃ s' w, Work.step ⟨b!"secret", demo, [⟨⟨true, false⟩, b!"i get;\n", .reading, []⟩], true⟩ (.read 0) =
    some (.done s', w) ∧ w ≤ 200 * 8 ^ 3 := by
  have h : Work.step ⟨b!"secret", demo, [⟨⟨true, false⟩, b!"i get;\n", .reading, []⟩], true⟩ (.read 0) =
    some (.done ⟨b!"secret", demo, [⟨⟨true, false⟩, [], .writing b!"AuthenticationError: not authenticated.", []⟩], true⟩,
      (parseC b!"i get;").2) := rfl
  exact ⟨_, _, h, C94_strangers (i := 0) (k := ⟨⟨true, false⟩, b!"i get;\n", .reading, []⟩) rfl rfl h⟩

end Knuckle.Props
