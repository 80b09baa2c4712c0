/-
C114: a vector as a stack, for any number of clients.

`Serial pwd c log c'` is what C44 provides for every schedule of the server.
-/
import Verif.Props.Queue
import Verif.Spec.Stack

namespace Knuckle.Props

open Spec

variable {pwd : Str} {c c' d : Ctx} {n t : Str} {l l' m m' log : List Request} {p q : Request} {l₀ k : List Obj} {o : Obj}

theorem vec_popBack {cfg : Cfg} {k : List Obj} {i : Inst} {r : Str} {args : List Str} (h : Behaves cfg (.vector t k) b!"popBack" args (.gives i r)) :
    args = [] ∧ ((k = [] ∧ i = .vector t [] ∧ r = b!"null") ∨ ∃ o k', k = k' ++ [o] ∧ i = .vector t k' ∧ r = o.repr cfg.prec) := by
  generalize hx : Result.gives i r = x at h
  generalize hn : b!"popBack" = nm at h
  cases h with
  | @vector _ _ _ _ m hs =>
    obtain ⟨w, e, rfl⟩ := map_gives hx.symm
    cases hs <;> first | exact absurd hn (by decide) | skip
    refine ⟨rfl, ?_⟩
    simp only [vecMeaning] at e
    split at e
    · rename_i h
      cases List.getLast?_eq_none_iff.1 h
      simp only [Result.gives.injEq] at e; exact .inl ⟨rfl, by rw [← e.1], e.2.symm⟩
    · rename_i o h
      obtain ⟨k', rfl⟩ := List.getLast?_eq_some_iff.1 h
      simp only [Result.gives.injEq, List.dropLast_concat] at e
      exact .inr ⟨o, k', rfl, by rw [← e.1], e.2.symm⟩
  | _ => exact absurd hn (by decide)

/-- A vector remains one. -/
theorem vec_stays {cfg : Cfg} {k : List Obj} {i : Inst} {name r : Str} {args : List Str} (h : Behaves cfg (.vector t k) name args (.gives i r)) :
    ∃ k', i = .vector t k' := by
  generalize hx : Result.gives i r = x at h
  cases h with
  | vector hs => obtain ⟨w, e, rfl⟩ := map_gives hx.symm; exact ⟨_, rfl⟩
  | sort => cases hx; exact ⟨_, rfl⟩
  | sortUndefined => cases hx

theorem chain_vec {ops : List (Str × List Str × Str)} {i : Inst} (h : Chain (.vector t k) ops i) : ∃ k', i = .vector t k' := by
  generalize hj : Inst.vector t k = j at h
  induction h generalizing k with
  | nil => exact ⟨k, hj.symm⟩
  | cons _ hb _ _ ih =>
    subst hj
    obtain ⟨k', rfl⟩ := vec_stays hb
    exact ih rfl

theorem vec_still [StdSort] (hc : Reachable c) (hn : Holds c n (.vector t l₀)) (h : Serial pwd c log c') (hd : ∀ q ∈ log, q.accepted → ¬ Deletes q.line n) :
    ∃ k, Holds c' n (.vector t k) := by
  obtain ⟨ops, h1⟩ := C67_every_history hd
  obtain ⟨_, i, hi, hch⟩ := updates_chain hc hn (serial_updates h h1)
  obtain ⟨k, rfl⟩ := chain_vec hch
  exact ⟨k, hi⟩

theorem push_step [StdSort] (hc : Reachable c) (h : Serial pwd c (l ++ [p]) c') (hp : Pushes n t p o) :
    ∃ d, Serial pwd c l d ∧ ∀ k, Holds d n (.vector t k) → Holds c' n (.vector t (k ++ [o])) := by
  obtain ⟨ha, a, hs, ho⟩ := hp
  obtain ⟨d, hd, _, ⟨s, s', _, _, he⟩ | ⟨_, _, h3, _⟩⟩ := serial_snoc h
  swap
  · exact absurd (by rw [h3]; decide) ha
  refine ⟨d, hd, fun k hk => ?_⟩
  obtain ⟨i, hb, hch, _⟩ := accepted_behaves (serial_reachable hc hd) hk hs he ha
  obtain ⟨a', o', e, hd', rfl, _⟩ := vec_push hb
  cases e
  rw [denotes_unique ho hd']
  exact onlyChanged_holds hch

theorem pop_step [StdSort] (hc : Reachable c) (h : Serial pwd c (l ++ [q]) c') (hs : Statement q.line n b!"popBack" []) (ha : q.accepted) :
    ∃ d, Serial pwd c l d ∧ (∀ k o, Holds d n (.vector t (k ++ [o])) → Holds c' n (.vector t k) ∧ q.reply = o.repr d.cfg.prec) ∧
      (Holds d n (.vector t []) → Holds c' n (.vector t []) ∧ q.reply = b!"null") := by
  obtain ⟨d, hd, _, ⟨s, s', _, _, he⟩ | ⟨_, _, h3, _⟩⟩ := serial_snoc h
  swap
  · exact absurd (by rw [h3]; decide) ha
  refine ⟨d, hd, fun k o hk => ?_, fun hk => ?_⟩
  · obtain ⟨i, hb, hch, _⟩ := accepted_behaves (serial_reachable hc hd) hk hs he ha
    obtain ⟨_, ⟨e, _⟩ | ⟨o', k', e, rfl, hr⟩⟩ := vec_popBack hb
    · simp at e
    · obtain ⟨rfl, e'⟩ := List.append_inj' e rfl
      obtain ⟨rfl, _⟩ := List.cons.inj e'
      exact ⟨onlyChanged_holds hch, hr⟩
  · obtain ⟨i, hb, hch, _⟩ := accepted_behaves (serial_reachable hc hd) hk hs he ha
    obtain ⟨_, ⟨_, rfl, hr⟩ | ⟨o', k', e, _⟩⟩ := vec_popBack hb
    · exact ⟨onlyChanged_holds hch, hr⟩
    · simp at e

theorem other_step [StdSort] (hc : Reachable c) (h : Serial pwd c (l ++ [q]) c')
    (ho : ¬ q.accepted ∨ (∃ name args, Statement q.line n name args ∧ Question name) ∨ ¬ Concerns q.line n) :
    ∃ d, Serial pwd c l d ∧ ∀ i, Holds d n i → Holds c' n i := by
  obtain ⟨d, hd, _, ⟨s, s', _, _, he⟩ | ⟨_, _, h3, rfl⟩⟩ := serial_snoc h
  · refine ⟨d, hd, fun i hk => ?_⟩
    obtain ⟨_, j, hj, hch⟩ := updates_chain (serial_reachable hc hd) hk
      (.other he (ho.elim (fun h => .inl (not_not.1 h)) .inr) .nil : Updates n d [] c')
    cases hch
    exact hj
  · exact ⟨_, hd, fun _ h => h⟩

/-- C114: after pushes and pops that match, of any clients, the vector holds what it held. -/
theorem C114_restores [StdSort] (hc : Reachable c) (h : Serial pwd c (l ++ m) c') (hm : Nested n t m) :
    ∃ d, Serial pwd c l d ∧ ∀ k, Holds d n (.vector t k) → Holds c' n (.vector t k) := by
  induction hm generalizing l c' with
  | nil => exact ⟨c', by simpa using h, fun _ h => h⟩
  | other ho _ ih =>
    rw [List.append_cons] at h
    obtain ⟨e, he, h1⟩ := ih h
    obtain ⟨d, hd, h2⟩ := other_step hc he ho
    exact ⟨d, hd, fun k hk => h1 k (h2 _ hk)⟩
  | @pair p o m q m' hp _ hs ha _ ih1 ih2 =>
    rw [List.append_cons, ← List.append_assoc, List.append_cons] at h
    obtain ⟨e, he, h1⟩ := ih2 h
    obtain ⟨f, hf, h2, _⟩ := pop_step (t := t) hc he hs ha
    obtain ⟨g, hg, h3⟩ := ih1 hf
    obtain ⟨d, hd, h4⟩ := push_step hc hg hp
    exact ⟨d, hd, fun k hk => h1 k (h2 k o (h3 _ (h4 k hk))).1⟩

/-- C114: a `popBack` is answered the value of the `pushBack:` that it matches, whoever pushed it. -/
theorem C114_matching [StdSort] (hc : Reachable c) (hn : Holds c n (.vector t l₀)) (h : Serial pwd c (l ++ p :: (m ++ q :: l')) c')
    (hd : ∀ x ∈ l, x.accepted → ¬ Deletes x.line n) (hp : Pushes n t p o) (hm : Nested n t m)
    (hs : Statement q.line n b!"popBack" []) (ha : Authenticated pwd (l ++ p :: m) q.conn) :
    q.accepted ∧ ∃ d, Serial pwd c (l ++ p :: m) d ∧ q.reply = o.repr d.cfg.prec := by
  have h : Serial pwd c ((l ++ p :: m) ++ [q] ++ l') c' := by simpa using h
  obtain ⟨x, hx⟩ := serial_prefix h
  obtain ⟨f, hf, _, ⟨s, s', _, _, he⟩ | ⟨h1, _⟩⟩ := serial_snoc hx
  swap
  · exact absurd ha h1
  rw [List.append_cons] at hf
  obtain ⟨g, hg, h3⟩ := C114_restores hc hf hm
  obtain ⟨d, hd', h4⟩ := push_step hc hg hp
  obtain ⟨k, hk⟩ := vec_still hc hn hd' hd
  have h5 := h3 _ (h4 k hk)
  have h2 := answers_vec (pwd := pwd) (s := some s) (serial_reachable hc hf) h5 hs .popBack
  simp only [vecMeaning, List.getLast?_concat] at h2
  obtain ⟨y, hy, _⟩ := h2; unfold Replies at hy; rw [he] at hy
  have e : q.reply = o.repr f.cfg.prec := (Prod.mk.inj (Prod.mk.inj (Outcome.done.inj hy)).2).2
  exact ⟨by unfold Request.accepted; rw [e]; exact (okReply_not_error (okReply_repr _ _)).1, f, by rw [List.append_cons]; exact hf, e⟩

/-! ### Every pop -/

theorem nested_append (h : Nested n t m) (h' : Nested n t m') : Nested n t (m ++ m') := by
  induction h with
  | nil => exact h'
  | other ho _ ih => exact .other ho ih
  | pair hp hm hs ha _ _ ih2 =>
    rw [List.cons_append, List.append_assoc, List.cons_append]
    exact .pair hp hm hs ha ih2

/-- What has been pushed and not yet been popped, the last one on top. -/
inductive OpenPushes (n t : Str) : List Request → List Obj → Prop
  | nil : OpenPushes n t [] []
  | other {q : Request} {l os} : (¬ q.accepted ∨ (∃ name args, Statement q.line n name args ∧ Question name) ∨ ¬ Concerns q.line n) → OpenPushes n t l os →
      OpenPushes n t (l ++ [q]) os
  | push {p : Request} {o : Obj} {l os} : Pushes n t p o → OpenPushes n t l os → OpenPushes n t (l ++ [p]) (os ++ [o])
  | pop {q : Request} {o l os} : Statement q.line n b!"popBack" [] → q.accepted → OpenPushes n t l (os ++ [o]) → OpenPushes n t (l ++ [q]) os
  | empty {q : Request} {l} : Statement q.line n b!"popBack" [] → q.accepted → OpenPushes n t l [] → OpenPushes n t (l ++ [q]) []

/-- The log is cut at the pushes that have not yet been popped. -/
inductive Cut (n t : Str) : List Request → List Obj → Prop
  | base {l : List Request} : Cut n t l []
  | push {l : List Request} {p : Request} {o : Obj} {m : List Request} {os} : Cut n t l os → Pushes n t p o → Nested n t m → Cut n t (l ++ p :: m) (os ++ [o])

theorem cut_append {os : List Obj} (h : Cut n t l os) (hm : Nested n t m) : Cut n t (l ++ m) os := by
  cases h with
  | base => exact .base
  | push h hp hm' => rw [List.append_assoc, List.cons_append]; exact .push h hp (nested_append hm' hm)

theorem cut_top {os : List Obj} (h : Cut n t l (os ++ [o])) : ∃ l1 p m, l = l1 ++ p :: m ∧ Pushes n t p o ∧ Nested n t m ∧ Cut n t l1 os := by
  generalize hk : os ++ [o] = k at h
  cases h with
  | base => simp at hk
  | push h hp hm =>
    obtain ⟨rfl, e⟩ := List.append_inj' hk rfl
    cases e
    exact ⟨_, _, _, rfl, hp, hm, h⟩

theorem open_cut {os : List Obj} (h : OpenPushes n t l os) : Cut n t l os := by
  induction h with
  | nil => exact .base
  | other ho _ ih => exact cut_append ih (.other ho .nil)
  | push hp _ ih => exact .push ih hp .nil
  | pop hs ha _ ih =>
    obtain ⟨l1, p, m, rfl, h1, h2, h3⟩ := cut_top ih
    rw [List.append_assoc, List.cons_append]
    exact cut_append h3 (.pair h1 h2 hs ha .nil)
  | empty => exact .base

theorem open_holds [StdSort] (hc : Reachable c) (hn : Holds c n (.vector t [])) (h : Serial pwd c log c') (hu : OnlyStacks n log) :
    ∃ os, OpenPushes n t log os ∧ Holds c' n (.vector t os) := by
  induction log using List.reverseRecOn generalizing c' with
  | nil =>
    generalize hl : ([] : List Request) = l at h
    cases h with
    | nil => exact ⟨[], .nil, hn⟩
    | executed => simp at hl
    | ignored => simp at hl
  | append_singleton l q ih =>
    have ih := fun {d} (hd : Serial pwd c l d) => ih hd fun x hx => hu x (List.mem_append_left _ hx)
    have key : (¬ q.accepted ∨ (∃ name args, Statement q.line n name args ∧ Question name) ∨ ¬ Concerns q.line n) →
        ∃ os, OpenPushes n t (l ++ [q]) os ∧ Holds c' n (.vector t os) := fun ho => by
      obtain ⟨d, hd, h1⟩ := other_step hc h ho
      obtain ⟨os, h2, h3⟩ := ih hd
      exact ⟨os, .other ho h2, h1 _ h3⟩
    by_cases ha : q.accepted
    swap
    · exact key (.inl ha)
    obtain ⟨h1, h2⟩ := hu q (by simp) ha
    by_cases hcon : Concerns q.line n
    swap
    · exact key (.inr (.inr hcon))
    cases hcon with
    | @message name args hst =>
      obtain ⟨d, hd, _, ⟨s, s', _, _, he⟩ | ⟨_, _, h3, _⟩⟩ := serial_snoc h
      swap
      · exact absurd (by rw [h3]; decide) ha
      obtain ⟨os, h4, h5⟩ := ih hd
      rcases h2 name args hst with hqu | rfl | rfl
      · exact key (.inr (.inl ⟨name, args, hst, hqu⟩))
      · obtain ⟨i, hb, hch, _⟩ := accepted_behaves (serial_reachable hc hd) h5 hst he ha
        obtain ⟨a, o, rfl, h6, rfl, _⟩ := vec_push hb
        exact ⟨_, .push ⟨ha, a, hst, h6⟩ h4, onlyChanged_holds hch⟩
      · obtain ⟨i, hb, hch, _⟩ := accepted_behaves (serial_reachable hc hd) h5 hst he ha
        obtain ⟨rfl, ⟨rfl, rfl, _⟩ | ⟨o, k', rfl, rfl, _⟩⟩ := vec_popBack hb
        · exact ⟨_, .empty hst ha h4, onlyChanged_holds hch⟩
        · exact ⟨_, .pop hst ha h4, onlyChanged_holds hch⟩
    | delete hst => exact absurd (.delete hst) h1
    | deleteNamespace hst hns => exact absurd (.deleteNamespace hst hns) h1

/-- C114: on a vector that was empty and is used as a stack only, every `popBack` is answered the value of the last `pushBack:` that has not been popped before, and
`null` exactly if there is none. -/
theorem C114_every_pop [StdSort] (hc : Reachable c) (hn : Holds c n (.vector t [])) (h : Serial pwd c (l ++ q :: l') c') (hu : OnlyStacks n l)
    (hs : Statement q.line n b!"popBack" []) (ha : Authenticated pwd l q.conn) :
    q.accepted ∧ (q.reply = b!"null" ↔ ¬ ∃ l1 p m o, l = l1 ++ p :: m ∧ Pushes n t p o ∧ Nested n t m) ∧
      ∀ l1 p m o, l = l1 ++ p :: m → Pushes n t p o → Nested n t m → Printed q.reply o := by
  have hmatch : ∀ l1 p m o, l = l1 ++ p :: m → Pushes n t p o → Nested n t m → Printed q.reply o := by
    rintro l1 p m o rfl hp hm
    obtain ⟨_, d, _, e⟩ := C114_matching hc hn (by simpa using h) (fun x hx hxa => (hu x (by simp [hx]) hxa).1) hp hm hs ha
    exact ⟨_, e⟩
  have h : Serial pwd c (l ++ [q] ++ l') c' := by simpa using h
  obtain ⟨x, hx⟩ := serial_prefix h
  obtain ⟨d, hd, _, ⟨s, s', _, _, he⟩ | ⟨h1, _⟩⟩ := serial_snoc hx
  swap
  · exact absurd ha h1
  obtain ⟨os, h4, h5⟩ := open_holds hc hn hd hu
  have h2 := answers_vec (pwd := pwd) (s := some s) (serial_reachable hc hd) h5 hs .popBack
  rcases List.eq_nil_or_concat os with rfl | ⟨os, o, rfl⟩
  · simp only [vecMeaning, List.getLast?_nil] at h2
    obtain ⟨y, hy, _⟩ := h2; unfold Replies at hy; rw [he] at hy
    have e : q.reply = b!"null" := (Prod.mk.inj (Prod.mk.inj (Outcome.done.inj hy)).2).2
    refine ⟨by unfold Request.accepted; rw [e]; decide, ⟨fun _ => ?_, fun _ => e⟩, hmatch⟩
    rintro ⟨l1, p, m, o, h6, h7, h8⟩
    obtain ⟨pr, e'⟩ := hmatch l1 p m o h6 h7 h8
    exact absurd (e'.symm.trans e) (repr_ne_null _ _)
  · rw [List.concat_eq_append] at h4 h2
    simp only [vecMeaning, List.getLast?_concat] at h2
    obtain ⟨y, hy, _⟩ := h2; unfold Replies at hy; rw [he] at hy
    have e : q.reply = o.repr d.cfg.prec := (Prod.mk.inj (Prod.mk.inj (Outcome.done.inj hy)).2).2
    refine ⟨by unfold Request.accepted; rw [e]; exact (okReply_not_error (okReply_repr _ _)).1, ⟨fun h => ?_, fun h => ?_⟩, hmatch⟩
    · exact absurd (e.symm.trans h) (repr_ne_null _ _)
    · obtain ⟨l1, p, m, h6, h7, h8, _⟩ := cut_top (open_cut h4)
      exact absurd ⟨l1, p, m, o, h6, h7, h8⟩ h

open Classical in
/-- One more, one less, or as many. -/
noncomputable def stackWeight (n t : Str) (q : Request) : Int :=
  if ∃ o, Pushes n t q o then 1 else if q.accepted ∧ Statement q.line n b!"popBack" [] then -1 else 0

noncomputable def netPushes (n t : Str) (l : List Request) : Int := (l.map (stackWeight n t)).sum

theorem netPushes_append : netPushes n t (l ++ m) = netPushes n t l + netPushes n t m := by simp [netPushes]
theorem netPushes_cons : netPushes n t (q :: m) = stackWeight n t q + netPushes n t m := by simp [netPushes]

theorem stackWeight_push (h : Pushes n t q o) : stackWeight n t q = 1 := if_pos ⟨o, h⟩

theorem stackWeight_pop (h : Statement q.line n b!"popBack" []) (ha : q.accepted) : stackWeight n t q = -1 := by
  unfold stackWeight
  rw [if_neg, if_pos ⟨ha, h⟩]
  rintro ⟨o, _, a, hs, _⟩
  exact absurd (statement_unique h hs).2.1 (by decide)

theorem stackWeight_other (h : ¬ q.accepted ∨ (∃ name args, Statement q.line n name args ∧ Question name) ∨ ¬ Concerns q.line n) : stackWeight n t q = 0 := by
  have key : ∀ name args, q.accepted → Statement q.line n name args → ¬ Question name → False := by
    intro name args ha hs hq
    rcases h with h | ⟨nm, as, hs', hq'⟩ | h
    · exact h ha
    · exact hq ((statement_unique hs hs').2.1 ▸ hq')
    · exact h (.message hs)
  unfold stackWeight
  rw [if_neg, if_neg]
  · rintro ⟨ha, hs⟩
    exact key _ _ ha hs (by decide)
  · rintro ⟨o, ha, a, hs, _⟩
    exact key _ _ ha hs (by decide)

theorem nested_net (h : Nested n t m) : netPushes n t m = 0 ∧ ∀ x y, m = x ++ y → 0 ≤ netPushes n t x := by
  induction h with
  | nil =>
    refine ⟨rfl, fun x y e => ?_⟩
    obtain ⟨rfl, _⟩ := List.append_eq_nil_iff.1 e.symm
    exact Int.le_refl 0
  | @other q m ho _ ih =>
    refine ⟨by rw [netPushes_cons, stackWeight_other ho, ih.1, Int.add_zero], fun x y e => ?_⟩
    rcases List.cons_eq_append_iff.1 e with ⟨rfl, _⟩ | ⟨x', rfl, e2⟩
    · exact Int.le_refl 0
    · rw [netPushes_cons, stackWeight_other ho]
      have := ih.2 _ _ e2
      omega
  | @pair p o m q m' hp _ hs ha _ ih1 ih2 =>
    refine ⟨by rw [netPushes_cons, netPushes_append, netPushes_cons, stackWeight_push hp, stackWeight_pop hs ha, ih1.1, ih2.1]; rfl, fun x y e => ?_⟩
    rcases List.cons_eq_append_iff.1 e with ⟨rfl, _⟩ | ⟨x', rfl, e2⟩
    · exact Int.le_refl 0
    · rw [netPushes_cons, stackWeight_push hp]
      rcases List.append_eq_append_iff.1 e2 with ⟨z, rfl, e3⟩ | ⟨z, e3, e4⟩
      · rw [netPushes_append, ih1.1]
        rcases List.cons_eq_append_iff.1 e3 with ⟨rfl, _⟩ | ⟨z', rfl, e4⟩
        · simp [netPushes]
        · rw [netPushes_cons, stackWeight_pop hs ha]
          have := ih2.2 _ _ e4
          omega
      · have := ih1.2 _ _ e3
        omega

theorem match_short {l1 l2 : List Request} {p1 p2 : Request} {m1 m2 z : List Request} {o2 : Obj} (e : l2 = l1 ++ p1 :: z) (h : l1 ++ p1 :: m1 = l2 ++ p2 :: m2)
    (h2 : Nested n t m1) (h3 : Pushes n t p2 o2) (h4 : Nested n t m2) : False := by
  subst e
  rw [List.append_assoc, List.cons_append] at h
  obtain ⟨_, h⟩ := List.cons.inj (List.append_cancel_left h)
  have h5 := (nested_net h2).2 _ _ h
  have h6 := (nested_net h2).1
  rw [h, netPushes_append, netPushes_cons, stackWeight_push h3, (nested_net h4).1] at h6
  omega

/-- C114: there is at most one such `pushBack:`. -/
theorem C114_unique_match {l1 l2 : List Request} {p1 p2 : Request} {m1 m2 : List Request} {o1 o2 : Obj} (h : l1 ++ p1 :: m1 = l2 ++ p2 :: m2)
    (h1 : Pushes n t p1 o1) (h2 : Nested n t m1) (h3 : Pushes n t p2 o2) (h4 : Nested n t m2) : l1 = l2 ∧ p1 = p2 ∧ m1 = m2 ∧ o1 = o2 := by
  have fin : l1 = l2 → l1 = l2 ∧ p1 = p2 ∧ m1 = m2 ∧ o1 = o2 := by
    rintro rfl
    obtain ⟨rfl, rfl⟩ := List.cons.inj (List.append_cancel_left h)
    obtain ⟨_, a, hs, ho⟩ := h1
    obtain ⟨_, b, hs', ho'⟩ := h3
    obtain ⟨_, _, e⟩ := statement_unique hs hs'
    cases e
    exact ⟨rfl, rfl, rfl, denotes_unique ho ho'⟩
  rcases List.append_eq_append_iff.1 h with ⟨z, e, e'⟩ | ⟨z, e, e'⟩
  · rcases List.cons_eq_append_iff.1 e' with ⟨rfl, _⟩ | ⟨z', rfl, _⟩
    · exact fin (by simp [e])
    · exact (match_short e h h2 h3 h4).elim
  · rcases List.cons_eq_append_iff.1 e' with ⟨rfl, _⟩ | ⟨z', rfl, _⟩
    · exact fin (by simp [e])
    · exact (match_short e h.symm h4 h1 h2).elim

/-- C114: for every schedule of the server. -/
theorem C114_server [StdSort] {es : List Event} {s : Server} (hc : Reachable c) (h : run (Server.init pwd c) es = some (.done s)) :
    ∃ log, Explains pwd c es s log ∧ ∀ n t l q l', log = l ++ q :: l' → Holds c n (.vector t []) → OnlyStacks n l →
      Statement q.line n b!"popBack" [] → Authenticated pwd l q.conn →
      (q.reply = b!"null" ↔ ¬ ∃ l1 p m o, l = l1 ++ p :: m ∧ Pushes n t p o ∧ Nested n t m) ∧
        ∀ l1 p m o, l = l1 ++ p :: m → Pushes n t p o → Nested n t m → Printed q.reply o := by
  obtain ⟨log, hl⟩ := C44_serialized hc h
  refine ⟨log, hl, ?_⟩
  rintro n t l q l' rfl hn hu hs ha
  exact (C114_every_pop hc hn hl.serial hu hs ha).2

/-! ### A case: client 0 and client 1 share a stack -/

def stackStart : Ctx := { fresh with vars := [(b!"s", .vector b!"Integer" [])] }

theorem stackStart_reachable [StdSort] : Reachable stackStart :=
  after_reachable (pwd := []) (s := none) (ts := [b!"Vector<Integer> create: s;"]) fresh_reachable (by kernel_rfl)

theorem stack_holds : Holds stackStart b!"s" (.vector b!"Integer" []) := by decide +kernel

def stackLog : List Request :=
  [⟨0, b!"s pushBack: 1;", b!"null"⟩, ⟨1, b!"s pushBack: 2;", b!"null"⟩, ⟨1, b!"s popBack;", b!"2"⟩, ⟨0, b!"s size;", b!"1"⟩, ⟨1, b!"s popBack;", b!"1"⟩,
   ⟨0, b!"s popBack;", b!"null"⟩]

theorem stack_serial [StdSort] : Serial [] stackStart stackLog stackStart :=
  serially_serial (ls := [(0, b!"s pushBack: 1;"), (1, b!"s pushBack: 2;"), (1, b!"s popBack;"), (0, b!"s size;"), (1, b!"s popBack;"), (0, b!"s popBack;")])
    .nil (by simp) (by kernel_rfl)

theorem stack_push1 : Pushes b!"s" b!"Integer" stackLog[0] (.integer 1) :=
  ⟨(by decide : b!"null" ∉ errorTexts), _, reads (by decide +kernel), .integer (intStr_literal 1) (by decide)⟩
theorem stack_push2 : Pushes b!"s" b!"Integer" stackLog[1] (.integer 2) :=
  ⟨(by decide : b!"null" ∉ errorTexts), _, reads (by decide +kernel), .integer (intStr_literal 2) (by decide)⟩

theorem stack_nested : Nested b!"s" b!"Integer" [stackLog[1], stackLog[2], stackLog[3]] :=
  .pair (m := []) stack_push2 .nil (reads (by decide +kernel)) (by decide : b!"2" ∉ errorTexts)
    (.other (.inr (.inl ⟨b!"size", [], reads (by decide +kernel), by decide⟩)) .nil)

/-- Client 1 pops what client 0 pushed. -/
example [StdSort] := C114_matching (l := []) (p := stackLog[0]) (m := [stackLog[1], stackLog[2], stackLog[3]]) (q := stackLog[4]) (l' := stackLog.drop 5)
  stackStart_reachable stack_holds stack_serial (by simp) stack_push1 stack_nested (reads (by decide +kernel)) (.inl rfl)
example [StdSort] := C114_restores (l := [stackLog[0]]) (m := [stackLog[1], stackLog[2], stackLog[3]]) stackStart_reachable
  (serial_prefix (l1 := stackLog.take 4) (l2 := stackLog.drop 4) stack_serial).choose_spec stack_nested

theorem stack_only : OnlyStacks b!"s" (stackLog.take 4) := by
  have h0 : Statement b!"s pushBack: 1;" b!"s" b!"pushBack:" [b!"1"] := reads (by decide +kernel)
  have h1 : Statement b!"s pushBack: 2;" b!"s" b!"pushBack:" [b!"2"] := reads (by decide +kernel)
  have h2 : Statement b!"s popBack;" b!"s" b!"popBack" [] := reads (by decide +kernel)
  have h3 : Statement b!"s size;" b!"s" b!"size" [] := reads (by decide +kernel)
  have nd : ∀ {t m a}, Statement t b!"s" m a → ¬ Deletes t b!"s" := by
    intro t m a h hd
    cases hd with
    | delete h' => exact absurd (statement_unique h h').1 (by decide)
    | deleteNamespace h' _ => exact absurd (statement_unique h h').1 (by decide)
  intro q hq _
  simp only [stackLog, List.take, List.mem_cons, List.not_mem_nil, or_false] at hq
  rcases hq with rfl | rfl | rfl | rfl
  · exact ⟨nd h0, fun _ _ h => .inr (.inl (statement_unique h h0).2.1)⟩
  · exact ⟨nd h1, fun _ _ h => .inr (.inl (statement_unique h h1).2.1)⟩
  · exact ⟨nd h2, fun _ _ h => .inr (.inr (statement_unique h h2).2.1)⟩
  · exact ⟨nd h3, fun _ _ h => .inl ((statement_unique h h3).2.1 ▸ by decide)⟩

example [StdSort] := C114_every_pop (l := stackLog.take 4) (q := stackLog[4]) (l' := stackLog.drop 5) stackStart_reachable stack_holds stack_serial stack_only
  (reads (by decide +kernel)) (.inl rfl)
example := C114_unique_match (l1 := []) (p1 := stackLog[0]) (m1 := [stackLog[1], stackLog[2], stackLog[3]]) rfl stack_push1 stack_nested stack_push1 stack_nested

/-- Two clients, one stack: the second client pops what the first one pushed. -/
def stackEvents : List Event := [
  .accept, .accept, .recv 0 b!"s pushBack: 1;\n", .read 0, .wrote 0, .recv 1 b!"s popBack;\n", .read 1, .wrote 1]

theorem stack_run [StdSort] : ∃ s, run (Server.init [] stackStart) stackEvents = some (.done s) ∧ s.conns.map Conn.out = [b!"null\n", b!"1\n"] :=
  ⟨{ pwd := [], ctx := stackStart, accepting := true, conns := [
      { sess := ⟨true, true⟩, inbuf := [], phase := .reading, out := b!"null\n" },
      { sess := ⟨true, true⟩, inbuf := [], phase := .reading, out := b!"1\n" }] }, by kernel_rfl, rfl⟩

example [StdSort] := C114_server stackStart_reachable stack_run.choose_spec.1

end Knuckle.Props
