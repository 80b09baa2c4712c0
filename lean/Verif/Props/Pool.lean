/-
C100: a vector works as a pool of resources: nothing is lent to two connections at the same time.
-/
import Verif.Spec.Pool
import Verif.Props.Agree
import Verif.Props.Reads
import Verif.Props.Schedules
import Mathlib.Data.List.Perm.Basic
import Mathlib.Data.List.Nodup

namespace Knuckle.Props

open Spec

variable {pwd n t : Str} {c c' : Ctx} {log l l' : List Request} {q : Request} {held : List (Nat × Str)} {l₀ : List Obj}

/-- What a printed element denotes is printed in the same way. -/
theorem denotes_printed {p : Int} {o o' : Obj} (ht : t ≠ b!"Float") (ho : HasType t o) (h : Denotes t (o.repr p) o') : o'.repr p = o.repr p := by
  obtain ⟨rfl, hv⟩ := ho
  cases o with
  | float x => exact absurd rfl ht
  | integer v => rw [denotes_unique h (.integer (intStr_literal v) hv)]
  | string v =>
    generalize hT : (Obj.string v).type = T at h
    cases h with
    | string h1 => exact literal_quoted _ _ h1
    | _ => exact absurd hT (by simp only [Obj.type]; decide)
  | boolean v =>
    have : Denotes b!"Boolean" ((Obj.boolean v).repr p) (.boolean v) := by cases v <;> constructor
    rw [denotes_unique h this]
  | character v => rw [denotes_unique h (.character v)]

/-- Taking. -/
theorem vec_take {cfg : Cfg} {k : List Obj} {i : Inst} {name r : Str} {args : List Str} (hm : TakesOne name args)
    (h : Behaves cfg (.vector t k) name args (.gives i r)) :
    ∃ k', i = .vector t k' ∧ ((k = [] ∧ k' = [] ∧ r = b!"null") ∨ ∃ o, (o :: k').Perm k ∧ r = o.repr cfg.prec) := by
  generalize hx : Result.gives i r = x at h
  cases h with
  | @vector _ _ _ _ m hs =>
    obtain ⟨w, e, rfl⟩ := map_gives hx.symm
    refine ⟨w, rfl, ?_⟩
    cases hm with
    | popFront =>
      generalize hn : b!"popFront" = nm at hs
      cases hs <;> first | exact absurd hn (by decide) | skip
      cases k with
      | nil => simp only [vecMeaning, Result.gives.injEq] at e; exact .inl ⟨rfl, e.1.symm, e.2.symm⟩
      | cons o k => simp only [vecMeaning, Result.gives.injEq] at e; exact .inr ⟨o, by rw [e.1], e.2.symm⟩
    | popBack =>
      generalize hn : b!"popBack" = nm at hs
      cases hs <;> first | exact absurd hn (by decide) | skip
      rcases List.eq_nil_or_concat k with rfl | ⟨k', o, rfl⟩
      · simp only [vecMeaning, List.getLast?_nil, Result.gives.injEq] at e; exact .inl ⟨rfl, e.1.symm, e.2.symm⟩
      · simp only [vecMeaning, List.concat_eq_append, List.getLast?_append, List.getLast?_singleton, Option.some_or, List.dropLast_concat,
          Result.gives.injEq] at e
        refine .inr ⟨o, ?_, e.2.symm⟩
        rw [← e.1, List.concat_eq_append]
        exact (List.perm_append_singleton o k').symm
    | popAtIndex a =>
      generalize hn : b!"popAtIndex:" = nm at hs
      cases hs <;> first | exact absurd hn (by decide) | skip
      rename_i j hd
      simp only [vecMeaning] at e
      split at e
      · rename_i hj
        simp only [Result.gives.injEq] at e
        refine .inr ⟨k[j.toNat], ?_, e.2.symm⟩
        rw [← e.1]
        exact List.getElem_cons_eraseIdx_perm (by omega)
      · cases e
  | _ => cases hm

/-- Giving back. -/
theorem vec_give {cfg : Cfg} {k : List Obj} {i : Inst} {name r a : Str} {args : List Str} (hm : GivesBack a name args)
    (h : Behaves cfg (.vector t k) name args (.gives i r)) : ∃ k' o, i = .vector t k' ∧ k'.Perm (o :: k) ∧ Denotes t a o := by
  generalize hx : Result.gives i r = x at h
  cases h with
  | @vector _ _ _ _ m hs =>
    obtain ⟨w, e, rfl⟩ := map_gives hx.symm
    cases hm with
    | pushFront =>
      generalize hn : b!"pushFront:" = nm at hs
      generalize hl : [a] = as at hs
      cases hs <;> first | exact absurd hn (by decide) | skip
      rename_i ho; cases hl
      simp only [vecMeaning, Result.gives.injEq] at e
      exact ⟨w, _, rfl, by rw [e.1], ho⟩
    | pushBack =>
      generalize hn : b!"pushBack:" = nm at hs
      generalize hl : [a] = as at hs
      cases hs <;> first | exact absurd hn (by decide) | skip
      rename_i ho; cases hl
      simp only [vecMeaning, Result.gives.injEq] at e
      exact ⟨w, _, rfl, by rw [← e.1]; exact List.perm_append_singleton .., ho⟩
    | insert b =>
      generalize hn : b!"insert:beforeIndex:" = nm at hs
      generalize hl : [a, b] = as at hs
      cases hs <;> first | exact absurd hn (by decide) | skip
      rename_i ho _; cases hl
      simp only [vecMeaning] at e
      split at e
      · rename_i hj
        simp only [Result.gives.injEq] at e
        exact ⟨w, _, rfl, by rw [← e.1]; exact List.perm_insertIdx _ _ (by omega), ho⟩
      · cases e
  | _ => cases hm

/-- Rearranging. -/
theorem vec_rearrange {cfg : Cfg} {k : List Obj} {i : Inst} {name r : Str} (hm : name = b!"reverse" ∨ name = b!"sort")
    (h : Behaves cfg (.vector t k) name [] (.gives i r)) : ∃ k', i = .vector t k' ∧ k'.Perm k := by
  rcases hm with rfl | rfl
  · generalize hx : Result.gives i r = x at h
    generalize hn : b!"reverse" = nm at h
    cases h with
    | @vector _ _ _ _ m hs =>
      obtain ⟨w, e, rfl⟩ := map_gives hx.symm
      cases hs <;> first | exact absurd hn (by decide) | skip
      simp only [vecMeaning, Result.gives.injEq] at e
      exact ⟨w, rfl, by rw [← e.1]; exact List.reverse_perm k⟩
    | _ => exact absurd hn (by decide)
  · rcases behaves_sort h with ⟨_, k', h1, _, e⟩ | ⟨_, e⟩
    · cases e; exact ⟨k', rfl, h1⟩
    · cases e

/-- C100: what is in the vector and what is lent is, together, what was in it at the beginning, nothing more often and nothing less often. -/
theorem C100_conserved [StdSort] (ht : t ≠ b!"Float") (hc : Reachable c) (hn : Holds c n (.vector t l₀)) (h : Serial pwd c log c')
    (hl : Lent n log held) (p : Int) :
    ∃ k, Holds c' n (.vector t k) ∧ (k.map (Obj.repr p) ++ held.map (·.2)).Perm (l₀.map (Obj.repr p)) := by
  have typed : ∀ {d : Ctx} {k : List Obj}, Reachable d → Holds d n (.vector t k) → ∀ x ∈ k, HasType t x := fun hd hk => (holds_wellTyped hd hk).2
  induction hl generalizing c' with
  | nil =>
    generalize hl : ([] : List Request) = l at h
    cases h with
    | nil => exact ⟨l₀, hn, by simp⟩
    | executed => simp at hl
    | ignored => simp at hl
  | @take q log held name args hs hm ha hq _ ih =>
    obtain ⟨x, hx, _, ⟨s, s', _, _, he⟩ | ⟨_, _, h3, _⟩⟩ := serial_snoc h
    swap
    · exact absurd (by rw [h3]; decide) ha
    obtain ⟨k, hk, hp⟩ := ih hx
    have hr := serial_reachable hc hx
    obtain ⟨i, hb, ho, _⟩ := accepted_behaves hr hk hs he ha
    obtain ⟨k', rfl, ⟨_, _, e⟩ | ⟨o, h1, e⟩⟩ := vec_take hm hb
    · exact absurd e hq
    · refine ⟨k', onlyChanged_holds ho, List.Perm.trans ?_ hp⟩
      rw [repr_nonfloat ht (typed hr hk o (h1.mem_iff.1 (by simp))) x.cfg.prec p] at e
      rw [List.map_cons, e]
      exact List.perm_middle.trans ((h1.map (Obj.repr p)).append_right _)
  | @empty q log held name args hs hm hq _ ih =>
    have ha : q.accepted := by unfold Request.accepted; rw [hq]; decide
    obtain ⟨x, hx, _, ⟨s, s', _, _, he⟩ | ⟨_, _, h3, _⟩⟩ := serial_snoc h
    swap
    · exact absurd (by rw [h3]; decide) ha
    obtain ⟨k, hk, hp⟩ := ih hx
    have hr := serial_reachable hc hx
    obtain ⟨i, hb, ho, _⟩ := accepted_behaves hr hk hs he ha
    obtain ⟨k', rfl, ⟨rfl, rfl, _⟩ | ⟨o, h1, e⟩⟩ := vec_take hm hb
    · exact ⟨[], onlyChanged_holds ho, hp⟩
    · exact absurd (e.symm.trans hq) (repr_ne_null _ _)
  | @give q log held name args a hs hm ha hq _ ih =>
    obtain ⟨x, hx, _, ⟨s, s', _, _, he⟩ | ⟨_, _, h3, _⟩⟩ := serial_snoc h
    swap
    · exact absurd (by rw [h3]; decide) ha
    obtain ⟨k, hk, hp⟩ := ih hx
    have hr := serial_reachable hc hx
    obtain ⟨i, hb, ho, _⟩ := accepted_behaves hr hk hs he ha
    obtain ⟨k', o, rfl, h1, hd⟩ := vec_give hm hb
    refine ⟨k', onlyChanged_holds ho, List.Perm.trans ?_ hp⟩
    obtain ⟨o', ho', e⟩ := List.mem_map.1 (hp.mem_iff.1 (List.mem_append_right _ (List.mem_map.2 ⟨_, hq, rfl⟩)))
    simp only at e
    rw [← e] at hd
    have e' := (denotes_printed ht (typed hc hn o' ho') hd).trans e
    have h2 := (h1.map (Obj.repr p)).append_right ((held.erase (q.conn, a)).map (·.2))
    refine h2.trans ?_
    rw [List.map_cons, e']
    refine List.perm_middle.symm.trans (List.Perm.append_left _ ?_)
    exact ((List.perm_cons_erase hq).map (·.2)).symm
  | @rearrange q log held name hs hm ha _ ih =>
    obtain ⟨x, hx, _, ⟨s, s', _, _, he⟩ | ⟨_, _, h3, _⟩⟩ := serial_snoc h
    swap
    · exact absurd (by rw [h3]; decide) ha
    obtain ⟨k, hk, hp⟩ := ih hx
    obtain ⟨i, hb, ho, _⟩ := accepted_behaves (serial_reachable hc hx) hk hs he ha
    obtain ⟨k', rfl, h1⟩ := vec_rearrange hm hb
    exact ⟨k', onlyChanged_holds ho, ((h1.map (Obj.repr p)).append_right _).trans hp⟩
  | @other q log held ho _ ih =>
    obtain ⟨x, hx, _, ⟨s, s', _, _, he⟩ | ⟨_, _, h3, rfl⟩⟩ := serial_snoc h
    · obtain ⟨k, hk, hp⟩ := ih hx
      obtain ⟨_, j, hj, hch⟩ := updates_chain (serial_reachable hc hx) hk
        (.other he (ho.elim (fun h => .inl (not_not.1 h)) .inr) .nil : Updates n x [] c')
      cases hch
      exact ⟨k, hj, hp⟩
    · exact ih hx

/-- C100: exclusion: if the elements were all different, nothing is lent twice, and nothing that is lent is in the vector. -/
theorem C100_exclusive [StdSort] (ht : t ≠ b!"Float") (hc : Reachable c) (hn : Holds c n (.vector t l₀)) (hd : l₀.Nodup)
    (h : Serial pwd c log c') (hl : Lent n log held) :
    (held.map (·.2)).Nodup ∧ (∀ i j a, (i, a) ∈ held → (j, a) ∈ held → i = j) ∧
      ∀ k, Holds c' n (.vector t k) → ∀ o ∈ k, ∀ i p, (i, o.repr p) ∉ held := by
  have key : ∀ p, ∃ k, Holds c' n (.vector t k) ∧ (k.map (Obj.repr p) ++ held.map (·.2)).Nodup := fun p => by
    obtain ⟨k, hk, hp⟩ := C100_conserved ht hc hn h hl p
    refine ⟨k, hk, hp.nodup_iff.2 ?_⟩
    exact nodup_map (fun x hx y hy e => repr_inj ht p ((holds_wellTyped hc hn).2 x hx) ((holds_wellTyped hc hn).2 y hy) e) hd
  obtain ⟨_, _, h0⟩ := key 0
  have h1 := (List.nodup_append.1 h0).2.1
  refine ⟨h1, fun i j a hi hj => ?_, fun k hk o ho i p hi => ?_⟩
  · have := List.inj_on_of_nodup_map h1 hi hj rfl
    exact (Prod.mk.inj this).1
  · obtain ⟨k', hk', hnd⟩ := key p
    unfold Holds at hk hk'
    rw [hk] at hk'; cases hk'
    exact (List.nodup_append.1 hnd).2.2 _ (List.mem_map.2 ⟨o, ho, rfl⟩) _ (List.mem_map.2 ⟨_, hi, rfl⟩) rfl

/-- C100: counting: no more are lent than there were; and what is lent was there. -/
theorem C100_at_most [StdSort] (ht : t ≠ b!"Float") (hc : Reachable c) (hn : Holds c n (.vector t l₀)) (h : Serial pwd c log c')
    (hl : Lent n log held) : held.length ≤ l₀.length ∧ ∀ i a, (i, a) ∈ held → ∃ o ∈ l₀, ∀ p, a = o.repr p := by
  obtain ⟨k, _, hp⟩ := C100_conserved ht hc hn h hl 0
  refine ⟨?_, fun i a hi => ?_⟩
  · have := hp.length_eq
    simp only [List.length_append, List.length_map] at this
    omega
  · obtain ⟨o, ho, e⟩ := List.mem_map.1 (hp.mem_iff.1 (List.mem_append_right _ (List.mem_map.2 ⟨_, hi, rfl⟩)))
    exact ⟨o, ho, fun p => by rw [repr_nonfloat ht ((holds_wellTyped hc hn).2 o ho) p 0]; exact e.symm⟩

/-- C100: availability: an authenticated client that takes from either end is told `null` exactly if everything is lent; otherwise it is told
something that nobody else has been lent. -/
theorem C100_available [StdSort] {name : Str} (ht : t ≠ b!"Float") (hc : Reachable c) (hn : Holds c n (.vector t l₀))
    (h : Serial pwd c (l ++ q :: l') c') (hl : Lent n l held) (hs : Statement q.line n name []) (hm : name = b!"popFront" ∨ name = b!"popBack")
    (ha : Authenticated pwd l q.conn) :
    (q.reply = b!"null" ↔ held.length = l₀.length) ∧ q.accepted ∧
      (q.reply ≠ b!"null" → l₀.Nodup → ∀ i, (i, q.reply) ∉ held) := by
  obtain ⟨x, hx⟩ := serial_prefix (l1 := l ++ [q]) (l2 := l') (by simpa using h)
  obtain ⟨d, hd, _, ⟨s, s', _, _, he⟩ | ⟨h1, _⟩⟩ := serial_snoc hx
  swap
  · exact absurd ha h1
  obtain ⟨k, hk, hp⟩ := C100_conserved ht hc hn hd hl d.cfg.prec
  have hr := serial_reachable hc hd
  have hm' : TakesOne name [] := by rcases hm with rfl | rfl <;> constructor
  have hlen := hp.length_eq
  simp only [List.length_append, List.length_map] at hlen
  have hrep : ∃ o, (k = [] ∧ q.reply = b!"null") ∨ (o ∈ k ∧ q.reply = o.repr d.cfg.prec) := by
    rcases hm with rfl | rfl
    · have h2 := answers_vec (pwd := pwd) (s := some s) hr hk hs .popFront
      cases k with
      | nil =>
        obtain ⟨y, hy, _⟩ := h2; unfold Replies at hy; rw [he] at hy
        exact ⟨.boolean true, .inl ⟨rfl, (Prod.mk.inj (Prod.mk.inj (Outcome.done.inj hy)).2).2⟩⟩
      | cons o k =>
        obtain ⟨y, hy, _⟩ := h2; unfold Replies at hy; rw [he] at hy
        exact ⟨o, .inr ⟨by simp, (Prod.mk.inj (Prod.mk.inj (Outcome.done.inj hy)).2).2⟩⟩
    · have h2 := answers_vec (pwd := pwd) (s := some s) hr hk hs .popBack
      rcases List.eq_nil_or_concat k with rfl | ⟨k', o, rfl⟩
      · obtain ⟨y, hy, _⟩ := h2; unfold Replies at hy; rw [he] at hy
        exact ⟨.boolean true, .inl ⟨rfl, (Prod.mk.inj (Prod.mk.inj (Outcome.done.inj hy)).2).2⟩⟩
      · simp only [vecMeaning, List.concat_eq_append, List.getLast?_append, List.getLast?_singleton, Option.some_or, List.dropLast_concat,
          Result.map] at h2
        obtain ⟨y, hy, _⟩ := h2; unfold Replies at hy; rw [he] at hy
        exact ⟨o, .inr ⟨by simp, (Prod.mk.inj (Prod.mk.inj (Outcome.done.inj hy)).2).2⟩⟩
  obtain ⟨o, ⟨rfl, e⟩ | ⟨hok, e⟩⟩ := hrep
  · rw [e]
    refine ⟨⟨fun _ => by simpa using hlen, fun _ => rfl⟩, ?_, fun h => absurd rfl h⟩
    unfold Request.accepted; rw [e]; decide
  · have hpos : 0 < k.length := List.length_pos_of_mem hok
    refine ⟨⟨fun h => absurd (e.symm.trans h) (repr_ne_null _ _), fun h => by omega⟩, ?_, fun _ hnd i hi => ?_⟩
    · unfold Request.accepted; rw [e]; exact (okReply_not_error (okReply_repr _ _)).1
    · rw [e] at hi
      exact (C100_exclusive ht hc hn hnd hd hl).2.2 k hk o hok i _ hi

/-- C100: whatever the clients do with the vector, as long as they only take, give back what they hold, rearrange it and ask questions, the
history is of the form the theorems speak of, whether the requests are accepted or not. -/
theorem C100_every_history {name : Str} {args : List Str} (hl : Lent n log held)
    (h : (Statement q.line n name args ∧ (TakesOne name args ∨ (∃ a, GivesBack a name args ∧ (q.conn, a) ∈ held) ∨
      (args = [] ∧ (name = b!"reverse" ∨ name = b!"sort")) ∨ Question name)) ∨ ¬ Concerns q.line n) :
    ∃ held', Lent n (log ++ [q]) held' := by
  by_cases ha : q.accepted
  swap
  · exact ⟨_, .other (.inl ha) hl⟩
  rcases h with ⟨hs, h | ⟨a, h, hh⟩ | ⟨rfl, h⟩ | h⟩ | h
  · by_cases hr : q.reply = b!"null"
    · exact ⟨_, .empty hs h hr hl⟩
    · exact ⟨_, .take hs h ha hr hl⟩
  · exact ⟨_, .give hs h ha hh hl⟩
  · exact ⟨_, .rearrange hs h ha hl⟩
  · exact ⟨_, .other (.inr (.inl ⟨_, _, hs, h⟩)) hl⟩
  · exact ⟨_, .other (.inr (.inr h)) hl⟩

/-- C100: the same for every schedule of a server. -/
theorem C100_server [StdSort] {es : List Event} {s : Server} (ht : t ≠ b!"Float") (hc : Reachable c) (hn : Holds c n (.vector t l₀))
    (hd : l₀.Nodup) (h : run (Server.init pwd c) es = some (.done s)) :
    ∃ log, Explains pwd c es s log ∧ ∀ l l' held, log = l ++ l' → Lent n l held →
      held.length ≤ l₀.length ∧ (∀ i j a, (i, a) ∈ held → (j, a) ∈ held → i = j) := by
  obtain ⟨log, hl⟩ := C44_serialized hc h
  refine ⟨log, hl, fun l l' held e hh => ?_⟩
  obtain ⟨x, hx⟩ := serial_prefix (l1 := l) (l2 := l') (by rw [← e]; exact hl.serial)
  exact ⟨(C100_at_most ht hc hn hx hh).1, (C100_exclusive ht hc hn hd hx hh).2.1⟩

/-- Two clients and a pool of three numbers. -/
def poolLog : List Request :=
  [⟨0, b!"v popFront;", b!"3"⟩, ⟨1, b!"v popFront;", b!"1"⟩, ⟨0, b!"v pushBack: 3;", b!"null"⟩, ⟨1, b!"v popBack;", b!"3"⟩]

example [StdSort] : Reachable demo ∧ Holds demo b!"v" (.vector b!"Integer" [.integer 3, .integer 1, .integer 2]) ∧
    [Obj.integer 3, .integer 1, .integer 2].Nodup ∧ (∃ c', Serial [] demo poolLog c') ∧ Lent b!"v" poolLog [(1, b!"3"), (1, b!"1")] := by
  have acc : ∀ {i l r}, r ∉ errorTexts → (⟨i, l, r⟩ : Request).accepted := fun h => h
  refine ⟨demo_reachable, by unfold Holds; kernel_rfl, by decide,
    ⟨{ demo with vars := updateVar b!"v" (.vector b!"Integer" [.integer 2]) demo.vars }, serially_serial (ls := [(0, b!"v popFront;"),
      (1, b!"v popFront;"), (0, b!"v pushBack: 3;"), (1, b!"v popBack;")]) .nil (by simp) (by kernel_rfl)⟩, ?_⟩
  have h1 := Lent.take (n := b!"v") (q := ⟨0, b!"v popFront;", b!"3"⟩) (reads (by kernel_rfl)) .popFront (acc (by decide)) (by decide) .nil
  have h2 := Lent.take (q := ⟨1, b!"v popFront;", b!"1"⟩) (reads (by kernel_rfl)) .popFront (acc (by decide)) (by decide) h1
  have h3 := Lent.give (q := ⟨0, b!"v pushBack: 3;", b!"null"⟩) (reads (by kernel_rfl)) (.pushBack (a := b!"3")) (acc (by decide)) (by decide) h2
  exact Lent.take (q := ⟨1, b!"v popBack;", b!"3"⟩) (reads (by kernel_rfl)) .popBack (acc (by decide)) (by decide) h3

end Knuckle.Props
