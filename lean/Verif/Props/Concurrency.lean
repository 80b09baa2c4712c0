/-
C66, C67, C68: what clients that share variables can rely on.

`Serial pwd c log c'` is what C44 provides for every schedule of the server.
-/
import Verif.Spec.Concurrency
import Verif.Props.Server
import Verif.Props.Containers

namespace Knuckle.Props

open Spec

variable {pwd : Str} {c c' : Ctx} {log : List Request} {n : Str}

theorem history_snoc [StdSort] {c1 c2 : Ctx} {h : List (Str × Str)} {s s' : Option Session} {text r : Str} (hh : History c h c1)
    (he : execute pwd c1 s text = .done (c2, s', r)) : History c (h ++ [(text, r)]) c2 := by
  induction hh with
  | nil => exact .cons he .nil
  | cons h1 _ ih => exact .cons h1 (ih he)

/-- The second part of a serial execution, as a history. -/
theorem serial_split [StdSort] {l1 l2 : List Request} (h : Serial pwd c (l1 ++ l2) c') :
    ∃ c1 h2, Serial pwd c l1 c1 ∧ History c1 h2 c' ∧ ∀ x ∈ h2, ∃ q ∈ l2, x = (q.line, q.reply) := by
  induction l2 using List.reverseRecOn generalizing c' with
  | nil => exact ⟨c', [], by simpa using h, .nil, by simp⟩
  | append_singleton l2 q ih =>
    rw [← List.append_assoc] at h
    obtain ⟨x, hx, _, ⟨s, s', _, _, h3⟩ | ⟨_, _, _, rfl⟩⟩ := serial_snoc h
    · obtain ⟨c1, h2, a, b, d⟩ := ih hx
      refine ⟨c1, _, a, history_snoc b h3, fun y hy => ?_⟩
      rcases List.mem_append.1 hy with hy | hy
      · obtain ⟨q', h4, h5⟩ := d y hy; exact ⟨q', by simp [h4], h5⟩
      · exact ⟨q, by simp, by simpa using hy⟩
    · obtain ⟨c1, h2, a, b, d⟩ := ih hx
      exact ⟨c1, h2, a, b, fun y hy => by obtain ⟨q', h4, h5⟩ := d y hy; exact ⟨q', by simp [h4], h5⟩⟩

/-- A serial execution, computed, on a server without password. -/
def serially [StdSort] : List (Nat × Str) → List Request → Ctx → Option (List Request × Ctx)
  | [], log, c => some (log, c)
  | (i, line) :: ls, log, c => match parse line with
    | .ok p => if p.actor = b!"Connection" then none else match execute [] c (some ⟨true, true⟩) line with
      | .done (c', some _, r) => serially ls (log ++ [⟨i, line, r⟩]) c'
      | _ => none
    | _ => none

theorem serially_serial [StdSort] {ls : List (Nat × Str)} {l1 l2 : List Request} {c1 c2 : Ctx} (h1 : Serial [] c l1 c1)
    (hcl : ∀ q ∈ l1, ¬ ToConnection q.line) (h : serially ls l1 c1 = some (l2, c2)) : Serial [] c l2 c2 := by
  induction ls generalizing l1 c1 with
  | nil => cases h; exact h1
  | cons x ls ih =>
    obtain ⟨i, line⟩ := x
    simp only [serially] at h
    cases hp : parse line with
    | ub => rw [hp] at h; cases h
    | err e => rw [hp] at h; cases h
    | ok p =>
      rw [hp] at h
      dsimp only at h
      split at h
      · cases h
      · rename_i hne
        have hst := (parse_iff _ p).1 hp
        have no : ∀ i, ¬ Closed l1 i := by
          rintro i ⟨q, hq, _, hq2⟩; exact hcl q hq ⟨_, _, hq2⟩
        split at h
        · rename_i c' s' r he
          refine ih (.executed h1 (no i) ⟨⟨fun _ => .inl rfl, fun _ => rfl⟩, ⟨fun _ => no i, fun _ => rfl⟩⟩ (.inl (.inl rfl)) he) ?_ h
          intro q hq
          rcases List.mem_append.1 hq with hq | hq
          · exact hcl q hq
          · rw [List.mem_singleton] at hq; subst hq
            rintro ⟨m, l, hst'⟩
            exact hne (statement_same hst hst').1
        · cases h

/-! ### C66 -/

theorem existsAfter_snoc {b : Prop} {log : List Request} {q : Request} :
    ExistsAfter b (log ++ [q]) n ↔ (q.accepted ∧ ∃ i, CreationOf q.line n i) ∨ (ExistsAfter b log n ∧ ¬ (q.accepted ∧ Deletes q.line n)) := by
  constructor
  · rintro (⟨l, x, l', e, h1, h2, h3⟩ | ⟨h1, h2⟩)
    · rcases List.eq_nil_or_concat l' with rfl | ⟨l', y, rfl⟩
      · obtain ⟨e1, e⟩ := List.append_inj' (t₁ := [q]) (t₂ := [x]) e rfl
        simp only [List.cons.injEq, and_true] at e
        subst e
        exact .inl ⟨h1, h2⟩
      · have e' : log ++ [q] = (l ++ x :: l') ++ [y] := by simpa using e
        obtain ⟨rfl, e2⟩ := List.append_inj' e' rfl
        simp only [List.cons.injEq, and_true] at e2
        subst e2
        exact .inr ⟨.inl ⟨l, x, l', rfl, h1, h2, fun z hz => h3 z (by simp [hz])⟩, fun h => h3 q (by simp) h.1 h.2⟩
    · exact .inr ⟨.inr ⟨h1, fun z hz => h2 z (by simp [hz])⟩, fun h => h2 q (by simp) h.1 h.2⟩
  · rintro (⟨h1, h2⟩ | ⟨⟨l, x, l', rfl, h1, h2, h3⟩ | ⟨h1, h2⟩, h4⟩)
    · exact .inl ⟨log, q, [], rfl, h1, h2, by simp⟩
    · refine .inl ⟨l, x, l' ++ [q], by simp, h1, h2, fun z hz ha hd => ?_⟩
      rcases List.mem_append.1 hz with hz | hz
      · exact h3 z hz ha hd
      · rw [List.mem_singleton] at hz; subst hz; exact h4 ⟨ha, hd⟩
    · refine .inr ⟨h1, fun z hz ha hd => ?_⟩
      rcases List.mem_append.1 hz with hz | hz
      · exact h2 z hz ha hd
      · rw [List.mem_singleton] at hz; subst hz; exact h4 ⟨ha, hd⟩

/-- An accepted deletion deletes. -/
theorem deletes_absent [StdSort] {s s' : Option Session} {text r : Str} (hc : Reachable c) (h : execute pwd c s text = .done (c', s', r))
    (hr : r ∉ errorTexts) (hd : Deletes text n) : Absent c' n := by
  cases hd with
  | delete hs =>
    cases hn : c.vars.lookup n with
    | none =>
      by_cases hv : Variable n
      · obtain ⟨x, hx, _⟩ := C30_delete_unknown (pwd := pwd) (s := s) hc hv hs hn
        unfold Replies at hx; rw [h] at hx; cases hx
        exact absurd (by decide) hr
      · obtain ⟨x, rfl, hd | ⟨e, hd, rfl⟩⟩ := execute_done (reachable_inv hc) h
        · have := does_lookup (reachable_inv hc) hd n
          unfold Absent; rw [record_vars]
          rcases this with h1 | ⟨⟨i, h1⟩, _⟩ | ⟨_, i, ⟨a, m, l, hst, hcr⟩, _⟩
          · rw [h1, hn]
          · rw [hn] at h1; cases h1
          · obtain ⟨rfl, _, _⟩ := statement_same hs hst
            exact absurd (creates_creation hcr).1 (by rw [← isType_iff]; decide)
        · exact absurd (exc_text_error e) hr
    | some i =>
      obtain ⟨x, hx, _, h1, _⟩ := C30_delete_removes_exactly_one (pwd := pwd) (s := s) hc hs hn
      unfold Replies at hx; rw [h] at hx; cases hx
      exact h1
  | @deleteNamespace ns hs hin =>
    have hid : Identifier ns := by
      by_contra hni
      have e := execute_statement pwd c s _ _ _ _ hs
      rw [executeParsed_context _ _ _ _ (by simp [isContext])] at e
      have hd : dispatch c (contextTable c) b!"deleteVariablesOfNamespace:" [ns] = opDeleteVariablesOfNamespace c [ns] := rfl
      rw [hd] at e
      have hi : isNamespace ns = false := by
        rw [Bool.eq_false_iff]; exact fun h => hni ((isIdentifier_iff ns).1 h)
      simp only [opDeleteVariablesOfNamespace, op1, hi, Bool.not_false, if_true] at e
      rw [h] at e
      cases e
      exact hr (by decide)
    obtain ⟨x, hx, _, h1⟩ := C30_delete_namespace (pwd := pwd) (s := s) hc hid hs
    unfold Replies at hx; rw [h] at hx; cases hx
    unfold Absent
    cases hl : c'.vars.lookup n with
    | none => rfl
    | some i => exact absurd hin ((h1 n i).1 hl).2

theorem exists_step [StdSort] {s s' : Option Session} {text r : Str} (hc : Reachable c) (h : execute pwd c s text = .done (c', s', r)) :
    (∃ i, Holds c' n i) ↔ (r ∉ errorTexts ∧ ∃ i, CreationOf text n i) ∨ ((∃ i, Holds c n i) ∧ ¬ (r ∉ errorTexts ∧ Deletes text n)) := by
  constructor
  · rintro ⟨i, hi⟩
    by_cases he : ∃ j, Holds c n j
    · refine .inr ⟨he, fun hd => ?_⟩
      have := deletes_absent hc h hd.1 hd.2
      unfold Absent at this; unfold Holds at hi; rw [this] at hi; cases hi
    · have ha : Absent c n := by
        unfold Absent
        cases hl : c.vars.lookup n with
        | none => rfl
        | some j => exact absurd ⟨j, hl⟩ he
      refine .inl ⟨fun hr => ?_, i, C29_only_creations_create hc ha h hi⟩
      have := (refused_same hc h hr).1.1
      unfold Holds at hi; rw [this] at hi
      exact he ⟨i, hi⟩
  · rintro (⟨_, i, a, m, l, hst, hcr⟩ | ⟨⟨i, hi⟩, hd⟩)
    · have e := execute_creates (pwd := pwd) (s := s) (reachable_inv hc) hst hcr
      rw [h] at e
      cases hl : c.vars.lookup n with
      | none =>
        rw [hl] at e
        simp only [Outcome.done.injEq, Prod.mk.injEq] at e
        refine ⟨i, ?_⟩
        unfold Holds; rw [e.1, record_vars, mapInsert_lookup _ _ _ (reachable_inv hc).asc, if_pos rfl]
      | some j =>
        rw [hl] at e
        refine ⟨j, ?_⟩
        unfold Holds
        dsimp only at e
        split at e <;> simp only [Outcome.done.injEq, Prod.mk.injEq] at e <;> rw [e.1, record_vars, hl]
    · obtain ⟨ops, ho⟩ := updates_of_history (n := n) (.cons h .nil) (by
        intro x hx hdx
        rw [List.mem_singleton] at hx; subst hx
        by_contra hr
        exact hd ⟨hr, hdx⟩)
      obtain ⟨_, j, hj, _⟩ := updates_chain hc hi ho
      exact ⟨j, hj⟩

/-- C66: a variable exists exactly if it was created by an accepted request of some client and has not been deleted by one
since (or existed before and has not been deleted). -/
theorem C66_exists_iff [StdSort] (hc : Reachable c) (h : Serial pwd c log c') :
    (∃ i, Holds c' n i) ↔ ExistsAfter (∃ i, Holds c n i) log n := by
  induction log using List.reverseRecOn generalizing c' with
  | nil =>
    generalize hl : ([] : List Request) = l at h
    cases h with
    | nil =>
      constructor
      · intro h; exact .inr ⟨h, by simp⟩
      · rintro (⟨l, q, l', e, _⟩ | h)
        · simp at e
        · exact h.1
    | executed => simp at hl
    | ignored => simp at hl
  | append_singleton log q ih =>
    obtain ⟨x, hx, _, ⟨s, s', _, _, h3⟩ | ⟨_, _, h3, rfl⟩⟩ := serial_snoc h
    · rw [existsAfter_snoc, ← ih hx]
      exact exists_step (serial_reachable hc hx) h3
    · have hq : ¬ q.accepted := fun h => h (by rw [h3]; decide)
      rw [existsAfter_snoc, ← ih hx]
      simp [hq]

/-- C66: so a name works as a lock: of the requests of all clients to create it, one is accepted exactly if its connection is
authenticated and the variable does not exist at that moment. -/
theorem C66_claim_accepted_iff [StdSort] {l l' : List Request} {q : Request} (hc : Reachable c) (h : Serial pwd c (l ++ q :: l') c')
    (hq : Claims q.line n) : q.accepted ↔ Authenticated pwd l q.conn ∧ ¬ ExistsAfter (∃ i, Holds c n i) l n := by
  obtain ⟨d, hd⟩ := serial_prefix (l1 := l ++ [q]) (l2 := l') (by simpa using h)
  obtain ⟨x, hx, _, h2⟩ := serial_snoc hd
  rw [← C66_exists_iff hc hx]
  obtain ⟨a, m, args, i, hst, hcr, hm⟩ := hq
  have hnc : ¬ ToConnection q.line := by
    rintro ⟨m', args', hst'⟩
    obtain ⟨rfl, _, _⟩ := statement_same hst hst'
    exact absurd (creates_creation hcr).1 (by rw [← isType_iff]; decide)
  rcases h2 with ⟨s, s', _, h3, h4⟩ | ⟨h3, _, h4, _⟩
  · have e := execute_creates (pwd := pwd) (s := some s) (reachable_inv (serial_reachable hc hx)) hst hcr
    have hns : startsWith m b!"createIfNotExists:" = false := by rcases hm with rfl | rfl <;> decide
    rw [h4] at e
    unfold Holds Request.accepted
    cases hl : x.vars.lookup n with
    | none =>
      rw [hl] at e
      simp only [Outcome.done.injEq, Prod.mk.injEq] at e
      rw [e.2.2]
      exact ⟨fun _ => ⟨h3.resolve_right hnc, by simp⟩, fun _ => by decide⟩
    | some j =>
      rw [hl] at e
      simp only [hns, Bool.false_eq_true, if_false, Outcome.done.injEq, Prod.mk.injEq] at e
      rw [e.2.2]
      have : Exc.nameAlreadyUsed.text ∈ errorTexts := by decide
      simp [this]
  · exact ⟨fun h => absurd h (fun h => h (by rw [h4]; decide)), fun h => absurd h.1 h3⟩

/-- C66: mutual exclusion: between two accepted requests to create the same variable, by whatever clients, there is an accepted
request that deletes it. -/
theorem C66_mutual_exclusion [StdSort] {l1 l2 l3 : List Request} {q1 q2 : Request} (hc : Reachable c)
    (h : Serial pwd c (l1 ++ q1 :: (l2 ++ q2 :: l3)) c') (h1 : Claims q1.line n) (h2 : Claims q2.line n)
    (a1 : q1.accepted) (a2 : q2.accepted) : ∃ q ∈ l2, q.accepted ∧ Deletes q.line n := by
  have := (C66_claim_accepted_iff (l := l1 ++ q1 :: l2) (l' := l3) hc (by simpa using h) h2).1 a2
  by_contra hn
  push Not at hn
  obtain ⟨a, m, args, i, hst, hcr, _⟩ := h1
  exact this.2 (.inl ⟨l1, q1, l2, rfl, a1, ⟨i, a, m, args, hst, hcr⟩, hn⟩)

/-- Two clients compete for a name: only the first succeeds, until it has been deleted. -/
example [StdSort] : Serial [] fresh [⟨0, b!"String create: lock;", b!"null"⟩, ⟨1, b!"String create: lock;", b!"RuntimeError: variable name already used."⟩,
    ⟨0, b!"Context deleteVariable: lock;", b!"null"⟩, ⟨1, b!"String create: lock;", b!"null"⟩] { fresh with vars := [(b!"lock", .string [])] } ∧
    Claims b!"String create: lock;" b!"lock" :=
  ⟨serially_serial (ls := [(0, b!"String create: lock;"), (1, b!"String create: lock;"), (0, b!"Context deleteVariable: lock;"), (1, b!"String create: lock;")])
    .nil (by simp) (by kernel_rfl),
   _, _, _, _, reads (by kernel_rfl), .string (by simp) ((isVariable_iff _).1 (by decide)), .inl rfl⟩

/-! ### C67 -/

theorem updates_snoc_update [StdSort] {c1 c2 : Ctx} {ops : List (Str × List Str × Str)} {s s' : Option Session} {text name r : Str}
    {args : List Str} (h : Updates n c ops c1) (he : execute pwd c1 s text = .done (c2, s', r)) (hst : Statement text n name args)
    (hq : ¬ Question name) (hr : r ∉ errorTexts) : Updates n c (ops ++ [(name, args, r)]) c2 := by
  induction h with
  | nil => exact .update he hst hq hr .nil
  | update a b d e _ ih => exact .update a b d e (ih he)
  | other a b _ ih => exact .other a b (ih he)

theorem updates_snoc_other [StdSort] {c1 c2 : Ctx} {ops : List (Str × List Str × Str)} {s s' : Option Session} {text r : Str}
    (h : Updates n c ops c1) (he : execute pwd c1 s text = .done (c2, s', r))
    (hr : r ∈ errorTexts ∨ (∃ name args, Statement text n name args ∧ Question name) ∨ ¬ Concerns text n) : Updates n c ops c2 := by
  induction h with
  | nil => exact .other he hr .nil
  | update a b d e _ ih => exact .update a b d e (ih he)
  | other a b _ ih => exact .other a b (ih he)

theorem updatesOf_snoc {q : Request} {ops : List (Str × List Str × Str)} (h : UpdatesOf n (log ++ [q]) ops) :
    (∃ ops' name args, ops = ops' ++ [(name, args, q.reply)] ∧ UpdatesOf n log ops' ∧ Statement q.line n name args ∧ ¬ Question name ∧ q.accepted) ∨
    (UpdatesOf n log ops ∧ (¬ q.accepted ∨ (∃ name args, Statement q.line n name args ∧ Question name) ∨ ¬ Concerns q.line n)) := by
  induction log generalizing ops with
  | nil =>
    cases h with
    | update a b d e => cases e; exact .inl ⟨[], _, _, rfl, .nil, a, b, d⟩
    | other a e => cases e; exact .inr ⟨.nil, a⟩
  | cons x log ih =>
    cases h with
    | update a b d e =>
      rcases ih e with ⟨ops', name, args, rfl, h2, h3⟩ | ⟨h1, h2⟩
      · exact .inl ⟨_, name, args, rfl, .update a b d h2, h3⟩
      · exact .inr ⟨.update a b d h1, h2⟩
    | other a e =>
      rcases ih e with ⟨ops', name, args, rfl, h2, h3⟩ | ⟨h1, h2⟩
      · exact .inl ⟨_, name, args, rfl, .other a h2, h3⟩
      · exact .inr ⟨.other a h1, h2⟩

theorem serial_updates [StdSort] {ops : List (Str × List Str × Str)} (h : Serial pwd c log c') (ho : UpdatesOf n log ops) : Updates n c ops c' := by
  induction log using List.reverseRecOn generalizing c' ops with
  | nil =>
    generalize hl : ([] : List Request) = l at h
    cases h with
    | nil => cases ho; exact .nil
    | executed => simp at hl
    | ignored => simp at hl
  | append_singleton log q ih =>
    obtain ⟨x, hx, _, ⟨s, s', _, _, h3⟩ | ⟨_, _, h3, rfl⟩⟩ := serial_snoc h
    · rcases updatesOf_snoc ho with ⟨ops', name, args, rfl, h2, h4, h5, h6⟩ | ⟨h1, h2⟩
      · exact updates_snoc_update (ih hx h2) h3 h4 h5 h6
      · refine updates_snoc_other (ih hx h1) h3 ?_
        rcases h2 with h2 | h2
        · exact .inl (not_not.1 h2)
        · exact .inr h2
    · have hq : ¬ q.accepted := fun h => h (by rw [h3]; decide)
      rcases updatesOf_snoc ho with ⟨_, _, _, _, _, _, _, h6⟩ | ⟨h1, _⟩
      · exact absurd h6 hq
      · exact ih hx h1

/-- C67: every history of the server in which the variable is not deleted is of the form the following theorems speak of. -/
theorem C67_every_history (hd : ∀ q ∈ log, q.accepted → ¬ Deletes q.line n) : ∃ ops, UpdatesOf n log ops := by
  induction log with
  | nil => exact ⟨[], .nil⟩
  | cons q log ih =>
    obtain ⟨ops, ho⟩ := ih fun x hx => hd x (by simp [hx])
    by_cases ha : q.accepted
    · by_cases hcon : Concerns q.line n
      · cases hcon with
        | @message name args hst =>
          by_cases hq : Question name
          · exact ⟨ops, .other (.inr (.inl ⟨name, args, hst, hq⟩)) ho⟩
          · exact ⟨_, .update hst hq ha ho⟩
        | delete hst => exact absurd (.delete hst) (hd q (by simp) ha)
        | deleteNamespace hst hns => exact absurd (.deleteNamespace hst hns) (hd q (by simp) ha)
      · exact ⟨ops, .other (.inr (.inr hcon)) ho⟩
    · exact ⟨ops, .other (.inl ha) ho⟩

theorem exactly_gives {k : Int} {v : Int} {r : Str} (h : exactly k = .gives v r) : v = k := by
  unfold exactly at h
  split at h <;> cases h; rfl

theorem chain_counter {ops : List (Str × List Str × Str)} {d v : Int} {i : Inst} (hq : CounterOps ops d) (h : Chain (.integer v) ops i) :
    i = .integer (v + d) := by
  induction hq generalizing v with
  | nil => cases h; simp
  | @add a k r ops d ha _ ih =>
    cases h with
    | @cons cfg _ i' _ _ _ _ _ hw hb _ hch =>
      generalize hx : Result.gives i' r = x at hb
      cases hb with
      | @integer _ _ _ m hm =>
        obtain ⟨w, e, rfl⟩ := map_gives hx.symm
        cases hm with
        | @add _ x hd =>
          cases hd with
          | int h1 h2 =>
            have := intLiteral_unique _ _ _ ha h1
            subst this
            rw [ih hch, exactly_gives e, Int.add_assoc]
          | flt h1 h2 => exact absurd ((intLiteral_exists a).2 ⟨k, ha⟩) h2
  | @subtract a k r ops d ha _ ih =>
    cases h with
    | @cons cfg _ i' _ _ _ _ _ hw hb _ hch =>
      generalize hx : Result.gives i' r = x at hb
      cases hb with
      | @integer _ _ _ m hm =>
        obtain ⟨w, e, rfl⟩ := map_gives hx.symm
        cases hm with
        | @subtract _ x hd =>
          cases hd with
          | int h1 h2 =>
            have := intLiteral_unique _ _ _ ha h1
            subst this
            rw [ih hch, exactly_gives e]
            congr 1; omega
          | flt h1 h2 => exact absurd ((intLiteral_exists a).2 ⟨k, ha⟩) h2

theorem chain_journal {ops : List (Str × List Str × Str)} {vs : List Str} {v : Str} {i : Inst} (hq : JournalOps ops vs)
    (h : Chain (.string v) ops i) : i = .string (v ++ vs.flatten) := by
  induction hq generalizing v with
  | nil => cases h; simp
  | @concatenate a x r ops vs ha _ ih =>
    cases h with
    | @cons cfg _ i' _ _ _ _ _ hw hb _ hch =>
      generalize hx : Result.gives i' r = y at hb
      cases hb with
      | @string _ _ _ m hm =>
        obtain ⟨w, e, rfl⟩ := map_gives hx.symm
        cases hm with
        | @concatenate _ x' hd =>
          have := denotes_unique (.string ha) (.string hd)
          injection this with this
          subst this
          cases e
          rw [ih hch]; simp

/-- C67: no update is lost: if all that the clients send to an integer are additions and subtractions of integers (and
questions), its value is the sum of what it was and of everything that was added by accepted requests, whatever the schedule. -/
theorem C67_counter [StdSort] {ops : List (Str × List Str × Str)} {v d : Int} (hc : Reachable c) (hn : Holds c n (.integer v))
    (h : Serial pwd c log c') (ho : UpdatesOf n log ops) (hq : CounterOps ops d) : Holds c' n (.integer (v + d)) := by
  obtain ⟨_, i, hi, hch⟩ := updates_chain hc hn (serial_updates h ho)
  rw [← chain_counter hq hch]; exact hi

/-- Two clients count. -/
example [StdSort] : ∃ ops, Reachable demo ∧ Holds demo b!"i" (.integer (-7)) ∧
    Serial [] demo [⟨0, b!"i add: 10;", b!"null"⟩, ⟨1, b!"i add: 20;", b!"null"⟩, ⟨0, b!"i subtract: 3;", b!"null"⟩]
      { demo with vars := updateVar b!"i" (.integer 20) demo.vars } ∧
    UpdatesOf b!"i" [⟨0, b!"i add: 10;", b!"null"⟩, ⟨1, b!"i add: 20;", b!"null"⟩, ⟨0, b!"i subtract: 3;", b!"null"⟩] ops ∧ CounterOps ops 27 := by
  have ten : IntLiteral b!"10" 10 := intStr_literal 10
  have twenty : IntLiteral b!"20" 20 := intStr_literal 20
  have three : IntLiteral b!"3" 3 := intStr_literal 3
  have na : ¬ Question b!"add:" := by decide
  have ns : ¬ Question b!"subtract:" := by decide
  have acc : ∀ i l, (⟨i, l, b!"null"⟩ : Request).accepted := fun i l => (by decide : b!"null" ∉ errorTexts)
  exact ⟨_, demo_reachable, by decide +kernel,
    serially_serial (ls := [(0, b!"i add: 10;"), (1, b!"i add: 20;"), (0, b!"i subtract: 3;")]) .nil (by simp) (by kernel_rfl),
    .update (reads (by kernel_rfl)) na (acc _ _) (.update (reads (by kernel_rfl)) na (acc _ _) (.update (reads (by kernel_rfl)) ns (acc _ _) .nil)),
    .add ten (.add twenty (.subtract three .nil))⟩

/-- C67: and a string to which the clients only append holds everything that was appended, each piece in one piece, in the
order of the requests. -/
theorem C67_journal [StdSort] {ops : List (Str × List Str × Str)} {v : Str} {vs : List Str} (hc : Reachable c) (hn : Holds c n (.string v))
    (h : Serial pwd c log c') (ho : UpdatesOf n log ops) (hq : JournalOps ops vs) : Holds c' n (.string (v ++ vs.flatten)) := by
  obtain ⟨_, i, hi, hch⟩ := updates_chain hc hn (serial_updates h ho)
  rw [← chain_journal hq hch]; exact hi

/-- Two clients write a journal. -/
example [StdSort] : ∃ ops, Reachable demo ∧ Holds demo b!"a::s" (.string b!"say \"hi\"") ∧
    Serial [] demo [⟨0, b!"a::s concatenate: \"!\";", b!"null"⟩, ⟨1, b!"a::s concatenate: \"?\";", b!"null"⟩]
      { demo with vars := updateVar b!"a::s" (.string b!"say \"hi\"!?") demo.vars } ∧
    UpdatesOf b!"a::s" [⟨0, b!"a::s concatenate: \"!\";", b!"null"⟩, ⟨1, b!"a::s concatenate: \"?\";", b!"null"⟩] ops ∧
    JournalOps ops [b!"!", b!"?"] := by
  have q : ¬ Question b!"concatenate:" := by decide
  have acc : ∀ i l, (⟨i, l, b!"null"⟩ : Request).accepted := fun i l => (by decide : b!"null" ∉ errorTexts)
  have lit : ∀ s v, stringLit s = .ok v → StringLiteral s v := by
    intro s v h
    rcases stringLit_cases s with ⟨w, h1, h2⟩ | ⟨h1, _⟩ <;> rw [h] at h1 <;> cases h1
    exact h2
  exact ⟨_, demo_reachable, by decide +kernel,
    serially_serial (ls := [(0, b!"a::s concatenate: \"!\";"), (1, b!"a::s concatenate: \"?\";")]) .nil (by simp) (by kernel_rfl),
    .update (reads (by kernel_rfl)) q (acc _ _) (.update (reads (by kernel_rfl)) q (acc _ _) .nil),
    .concatenate (lit b!"\"!\"" _ (by decide +kernel)) (.concatenate (lit b!"\"?\"" _ (by decide +kernel)) .nil)⟩

/-- C67: clients that send `pushBack:` and `popFront` to a vector share a queue (C22): every element pushed is popped at most
once, by one client, in order. -/
theorem C67_queue [StdSort] {t : Str} {ops : List (Str × List Str × Str)} {pushed : List Obj} {replies : List Str} {l : List Obj}
    (hc : Reachable c) (hn : Holds c n (.vector t l)) (h : Serial pwd c log c') (ho : UpdatesOf n log ops)
    (hq : QueueOps t ops pushed replies) :
    ∃ popped l', Holds c' n (.vector t l') ∧ l ++ pushed = popped ++ l' ∧
      List.Forall₂ (fun o q => ∃ p, q = o.repr p) popped (replies.filter (· ≠ b!"null")) :=
  C22_queue hc hn (serial_updates h ho) hq

/-! ### C68 -/

theorem perm_sum {l1 l2 : List Int} (h : l1.Perm l2) : l1.sum = l2.sum := by
  induction h with
  | nil => rfl
  | cons x _ ih => rw [List.sum_cons, List.sum_cons, ih]
  | swap x y l => simp only [List.sum_cons]; omega
  | trans _ _ h1 h2 => exact h1.trans h2

theorem nodup_of_map {α β : Type} {f : α → β} {l : List α} (h : (l.map f).Nodup) : l.Nodup :=
  (List.pairwise_map.1 h).imp fun h e => h (by rw [e])

theorem counterOps_sum {ops1 ops2 : List (Str × List Str × Str)} {d1 d2 : Int} (h1 : CounterOps ops1 d1) (h2 : CounterOps ops2 d2)
    (hp : (messages ops1).Perm (messages ops2)) : d1 = d2 := by
  have val : ∀ {ops d}, CounterOps ops d → d = ((messages ops).map fun m => (match m with
      | (name, [a]) => if name = b!"add:" then decInt a else - decInt a
      | _ => 0 : Int)).sum := by
    intro ops d h
    induction h with
    | nil => rfl
    | @add a k r ops d ha _ ih =>
      simp only [messages, List.map_cons, List.sum_cons, if_true]
      rw [decInt_eq a k ha, ih]; rfl
    | @subtract a k r ops d ha _ ih =>
      simp only [messages, List.map_cons, List.sum_cons]
      rw [if_neg (by decide), decInt_eq a k ha, ih]; rfl
  rw [val h1, val h2]
  exact perm_sum (hp.map _)

/-- C68: additions and subtractions may be reordered: the value is the same. -/
theorem C68_counter_order [StdSort] {c1 c2 : Ctx} {log1 log2 : List Request} {ops1 ops2 : List (Str × List Str × Str)} {v d1 d2 : Int}
    (hc : Reachable c) (hn : Holds c n (.integer v)) (h1 : Serial pwd c log1 c1) (h2 : Serial pwd c log2 c2)
    (o1 : UpdatesOf n log1 ops1) (o2 : UpdatesOf n log2 ops2) (q1 : CounterOps ops1 d1) (q2 : CounterOps ops2 d2)
    (hp : (messages ops1).Perm (messages ops2)) : ∃ w, Holds c1 n (.integer w) ∧ Holds c2 n (.integer w) := by
  have e := counterOps_sum q1 q2 hp
  subst e
  exact ⟨_, C67_counter hc hn h1 o1 q1, C67_counter hc hn h2 o2 q2⟩

/-- Two sets with the same elements are the same. -/
theorem sets_equal [StdSort] {c1 c2 : Ctx} {n1 n2 t : Str} {l1 l2 : List Obj} (ht : t ≠ b!"Float") (r1 : Reachable c1) (r2 : Reachable c2)
    (h1 : Holds c1 n1 (.set t l1)) (h2 : Holds c2 n2 (.set t l2)) (h : ∀ o, o ∈ l1 ↔ o ∈ l2) : l1 = l2 := by
  have a1 := C23_elements_ascending ht r1 h1
  have a2 := C23_elements_ascending ht r2 h2
  have w1 := holds_wellTyped r1 h1
  refine List.Perm.eq_of_pairwise ?_ a1.1 a2.1 ((List.perm_ext_iff_of_nodup a1.2 a2.2).2 h)
  intro a b ha hb hab hba
  have sto := natLt_sto t ht
  have ta := w1.2.1 a ha
  have tb := w1.2.1 b ((h b).2 hb)
  have := sto.tr a b a ta tb ta hab hba
  rw [sto.irr a ta] at this; cases this

/-- Two dictionaries with the same pairs are the same. -/
theorem dictionaries_equal [StdSort] {c1 c2 : Ctx} {n1 n2 t u : Str} {l1 l2 : List (Obj × Obj)} (ht : t ≠ b!"Float") (r1 : Reachable c1) (r2 : Reachable c2)
    (h1 : Holds c1 n1 (.dictionary t u l1)) (h2 : Holds c2 n2 (.dictionary t u l2)) (h : ∀ k v, (k, v) ∈ l1 ↔ (k, v) ∈ l2) : l1 = l2 := by
  have a1 := C24_keys_ascending ht r1 h1
  have a2 := C24_keys_ascending ht r2 h2
  have w1 := holds_wellTyped r1 h1
  refine List.Perm.eq_of_pairwise ?_ (List.pairwise_map.1 a1.1) (List.pairwise_map.1 a2.1)
    ((List.perm_ext_iff_of_nodup (nodup_of_map a1.2.1) (nodup_of_map a2.2.1)).2 fun x => h x.1 x.2)
  intro a b ha hb hab hba
  have sto := natLt_sto t ht
  have ta := (w1.2.2.1 a ha).1
  have tb := (w1.2.2.1 b ((h b.1 b.2).2 hb)).1
  have := sto.tr a.1 b.1 a.1 ta tb ta hab hba
  rw [sto.irr a.1 ta] at this; cases this

theorem mem_messages {ops ops' : List (Str × List Str × Str)} (h : ∀ m, m ∈ messages ops → m ∈ messages ops') {op} (hop : op ∈ ops) :
    ∃ op' ∈ ops', op'.1 = op.1 ∧ op'.2.1 = op.2.1 := by
  obtain ⟨op', h1, h2⟩ := List.mem_map.1 (h _ (List.mem_map.2 ⟨op, hop, rfl⟩))
  simp only [Prod.mk.injEq] at h2
  exact ⟨op', h1, h2.1, h2.2⟩

theorem adds_congr {t : Str} {o : Obj} {op op' : Str × List Str × Str} (h : op'.1 = op.1 ∧ op'.2.1 = op.2.1) (ha : Adds t o op) : Adds t o op' := by
  obtain ⟨a, h1, h2, h3⟩ := ha
  exact ⟨a, h.1.trans h1, h.2.trans h2, h3⟩

theorem removes_congr {t : Str} {o : Obj} {op op' : Str × List Str × Str} (h : op'.1 = op.1 ∧ op'.2.1 = op.2.1) (ha : Removes t o op) : Removes t o op' := by
  rcases ha with ha | ⟨a, h1, h2, h3⟩
  · exact .inl (h.1.trans ha)
  · exact .inr ⟨a, h.1.trans h1, h.2.trans h2, h3⟩

theorem elementAfter_conflictFree {t : Str} {l : List Obj} {ops : List (Str × List Str × Str)} {o : Obj}
    (hf : ∀ op ∈ ops, ∀ op' ∈ ops, Adds t o op → ¬ Removes t o op') :
    ElementAfter t l ops o ↔ (∃ op ∈ ops, Adds t o op) ∨ (o ∈ l ∧ ∀ op ∈ ops, ¬ Removes t o op) := by
  constructor
  · rintro (⟨p, op, q, rfl, h1, _⟩ | h)
    · exact .inl ⟨op, by simp, h1⟩
    · exact .inr h
  · rintro (⟨op, h1, h2⟩ | h)
    · obtain ⟨p, q, rfl⟩ := List.append_of_mem h1
      exact .inl ⟨p, op, q, rfl, h2, fun x hx => hf op (by simp) x (by simp [hx]) h2⟩
    · exact .inr h

/-- C68: the order in which elements are added to and removed from a set, by whatever clients, and repetitions do not matter, as
long as nothing is both added and removed. -/
theorem C68_set_order [StdSort] {c1 c2 : Ctx} {log1 log2 : List Request} {ops1 ops2 : List (Str × List Str × Str)} {t : Str} {l : List Obj}
    (ht : t ≠ b!"Float") (hc : Reachable c) (hn : Holds c n (.set t l)) (h1 : Serial pwd c log1 c1) (h2 : Serial pwd c log2 c2)
    (o1 : UpdatesOf n log1 ops1) (o2 : UpdatesOf n log2 ops2) (hm : ∀ m, m ∈ messages ops1 ↔ m ∈ messages ops2)
    (hf : ∀ op ∈ ops1, ∀ op' ∈ ops1, ∀ o, Adds t o op → ¬ Removes t o op') :
    ∃ l', Holds c1 n (.set t l') ∧ Holds c2 n (.set t l') := by
  have r1 := serial_reachable hc h1
  have r2 := serial_reachable hc h2
  obtain ⟨l1, a1, b1⟩ := C23_sets_are_sets ht hc hn (serial_updates h1 o1)
  obtain ⟨l2, a2, b2⟩ := C23_sets_are_sets ht hc hn (serial_updates h2 o2)
  refine ⟨l1, a1, ?_⟩
  have e : l1 = l2 := by
    refine sets_equal ht r1 r2 a1 a2 fun o => ?_
    rw [b1, b2, elementAfter_conflictFree (fun op h op' h' => hf op h op' h' o), elementAfter_conflictFree]
    · constructor
      · rintro (⟨op, x, y⟩ | ⟨x, y⟩)
        · obtain ⟨op', x', e⟩ := mem_messages (fun m => (hm m).1) x
          exact .inl ⟨op', x', adds_congr e y⟩
        · refine .inr ⟨x, fun op hop hr => ?_⟩
          obtain ⟨op', x', e⟩ := mem_messages (fun m => (hm m).2) hop
          exact y op' x' (removes_congr e hr)
      · rintro (⟨op, x, y⟩ | ⟨x, y⟩)
        · obtain ⟨op', x', e⟩ := mem_messages (fun m => (hm m).2) x
          exact .inl ⟨op', x', adds_congr e y⟩
        · refine .inr ⟨x, fun op hop hr => ?_⟩
          obtain ⟨op', x', e⟩ := mem_messages (fun m => (hm m).1) hop
          exact y op' x' (removes_congr e hr)
    · intro op h op' h' ha hr
      obtain ⟨x, hx, e⟩ := mem_messages (fun m => (hm m).2) h
      obtain ⟨x', hx', e'⟩ := mem_messages (fun m => (hm m).2) h'
      exact hf x hx x' hx' o (adds_congr e ha) (removes_congr e' hr)
  rw [e]; exact a2

/-- Two clients fill a set, in different orders. -/
example [StdSort] : ∃ ops1 ops2 l1 l2 c1 c2, Reachable demo ∧ Holds demo b!"t" (.set b!"String" [.string b!"x", .string b!"y"]) ∧
    Serial [] demo l1 c1 ∧ Serial [] demo l2 c2 ∧ UpdatesOf b!"t" l1 ops1 ∧ UpdatesOf b!"t" l2 ops2 ∧
    (∀ m, m ∈ messages ops1 ↔ m ∈ messages ops2) ∧ c1.vars = c2.vars ∧ l1 ≠ l2 ∧
    (∀ op ∈ ops1, ∀ op' ∈ ops1, ∀ o, Adds b!"String" o op → ¬ Removes b!"String" o op') := by
  have q1 : ¬ Question b!"add:" := by decide
  have q2 : ¬ Question b!"remove:" := by decide
  have acc : ∀ i l, (⟨i, l, b!"null"⟩ : Request).accepted := fun i l => (by decide : b!"null" ∉ errorTexts)
  refine ⟨[(b!"add:", [b!"\"u\""], b!"null"), (b!"remove:", [b!"\"x\""], b!"null")], [(b!"remove:", [b!"\"x\""], b!"null"), (b!"add:", [b!"\"u\""], b!"null")],
    [⟨0, b!"t add: \"u\";", b!"null"⟩, ⟨1, b!"t remove: \"x\";", b!"null"⟩], [⟨1, b!"t remove: \"x\";", b!"null"⟩, ⟨0, b!"t add: \"u\";", b!"null"⟩],
    { demo with vars := updateVar b!"t" (.set b!"String" [.string b!"u", .string b!"y"]) demo.vars },
    { demo with vars := updateVar b!"t" (.set b!"String" [.string b!"u", .string b!"y"]) demo.vars },
    demo_reachable, by decide +kernel,
    serially_serial (ls := [(0, b!"t add: \"u\";"), (1, b!"t remove: \"x\";")]) .nil (by simp) (by kernel_rfl),
    serially_serial (ls := [(1, b!"t remove: \"x\";"), (0, b!"t add: \"u\";")]) .nil (by simp) (by kernel_rfl),
    .update (reads (by kernel_rfl)) q1 (acc _ _) (.update (reads (by kernel_rfl)) q2 (acc _ _) .nil),
    .update (reads (by kernel_rfl)) q2 (acc _ _) (.update (reads (by kernel_rfl)) q1 (acc _ _) .nil),
    fun m => by simp [messages]; exact or_comm, rfl, by decide, ?_⟩
  rintro op ho op' ho' o ⟨a, h1, h2, h3⟩ (h4 | ⟨b, h4, h5, h6⟩)
  · simp only [List.mem_cons, List.not_mem_nil, or_false] at ho'
    rcases ho' with rfl | rfl <;> exact absurd h4 (by decide)
  · simp only [List.mem_cons, List.not_mem_nil, or_false] at ho ho'
    rcases ho with rfl | rfl
    · rcases ho' with rfl | rfl
      · exact absurd h4 (by decide)
      · cases h2; cases h5
        cases h3 with
        | string h3 => cases h6 with
          | string h6 => exact absurd ((stringLit_denotes _ _ h3).trans (stringLit_denotes _ _ h6).symm) (by decide +kernel)
    · exact absurd h1 (by decide)

theorem associates_congr {t u : Str} {k v : Obj} {op op' : Str × List Str × Str} (h : op'.1 = op.1 ∧ op'.2.1 = op.2.1)
    (ha : Associates t u k v op) : Associates t u k v op' := by
  obtain ⟨a, b, h1, h2, h3⟩ := ha
  exact ⟨a, b, h.1.trans h1, h.2.trans h2, h3⟩

theorem rewrites_congr {t u : Str} {k : Obj} {op op' : Str × List Str × Str} (h : op'.1 = op.1 ∧ op'.2.1 = op.2.1)
    (ha : Rewrites t u k op) : Rewrites t u k op' := by
  rcases ha with ⟨v, ha⟩ | ha | ⟨a, h1, h2, h3⟩
  · exact .inl ⟨v, associates_congr h ha⟩
  · exact .inr (.inl (h.1.trans ha))
  · exact .inr (.inr ⟨a, h.1.trans h1, h.2.trans h2, h3⟩)

theorem last_of {α : Type} {P : α → Prop} {l : List α} (h : ∃ x ∈ l, P x) : ∃ p x q, l = p ++ x :: q ∧ P x ∧ ∀ y ∈ q, ¬ P y := by
  induction l with
  | nil => obtain ⟨x, hx, _⟩ := h; cases hx
  | cons a l ih =>
    by_cases h1 : ∃ x ∈ l, P x
    · obtain ⟨p, x, q, rfl, h2, h3⟩ := ih h1
      exact ⟨a :: p, x, q, rfl, h2, h3⟩
    · obtain ⟨x, hx, hp⟩ := h
      rcases List.mem_cons.1 hx with rfl | hx
      · exact ⟨[], x, l, rfl, hp, fun y hy hy2 => h1 ⟨y, hy, hy2⟩⟩
      · exact absurd ⟨x, hx, hp⟩ h1

theorem valueAfter_conflictFree {t u : Str} {l : List (Obj × Obj)} {ops : List (Str × List Str × Str)} {k v : Obj}
    (hf : ∀ op ∈ ops, ∀ op' ∈ ops, Rewrites t u k op → Rewrites t u k op' → op'.1 = op.1 ∧ op'.2.1 = op.2.1) :
    ValueAfter t u l ops k v ↔ (∃ op ∈ ops, Associates t u k v op) ∨ ((k, v) ∈ l ∧ ∀ op ∈ ops, ¬ Rewrites t u k op) := by
  constructor
  · rintro (⟨p, op, q, rfl, h1, _⟩ | h)
    · exact .inl ⟨op, by simp, h1⟩
    · exact .inr h
  · rintro (⟨op, h1, h2⟩ | h)
    · obtain ⟨p, x, q, e, hx, hq⟩ := last_of (P := Rewrites t u k) ⟨op, h1, .inl ⟨v, h2⟩⟩
      exact .inl ⟨p, x, q, e, associates_congr (hf op h1 x (by rw [e]; simp) (.inl ⟨v, h2⟩) hx) h2, hq⟩
    · exact .inr h

/-- C68: the order in which pairs are put into and removed from a dictionary, by whatever clients, and repetitions do not matter,
as long as no two different messages concern the same key. -/
theorem C68_dictionary_order [StdSort] {c1 c2 : Ctx} {log1 log2 : List Request} {ops1 ops2 : List (Str × List Str × Str)} {t u : Str}
    {l : List (Obj × Obj)} (ht : t ≠ b!"Float") (hc : Reachable c) (hn : Holds c n (.dictionary t u l)) (h1 : Serial pwd c log1 c1)
    (h2 : Serial pwd c log2 c2) (o1 : UpdatesOf n log1 ops1) (o2 : UpdatesOf n log2 ops2) (hm : ∀ m, m ∈ messages ops1 ↔ m ∈ messages ops2)
    (hf : ∀ op ∈ ops1, ∀ op' ∈ ops1, ∀ k, Rewrites t u k op → Rewrites t u k op' → op'.1 = op.1 ∧ op'.2.1 = op.2.1) :
    ∃ l', Holds c1 n (.dictionary t u l') ∧ Holds c2 n (.dictionary t u l') := by
  have r1 := serial_reachable hc h1
  have r2 := serial_reachable hc h2
  obtain ⟨l1, a1, b1⟩ := C24_dictionaries_are_maps ht hc hn (serial_updates h1 o1)
  obtain ⟨l2, a2, b2⟩ := C24_dictionaries_are_maps ht hc hn (serial_updates h2 o2)
  refine ⟨l1, a1, ?_⟩
  have e : l1 = l2 := by
    refine dictionaries_equal ht r1 r2 a1 a2 fun k v => ?_
    rw [b1, b2, valueAfter_conflictFree (fun op h op' h' => hf op h op' h' k), valueAfter_conflictFree]
    · constructor
      · rintro (⟨op, x, y⟩ | ⟨x, y⟩)
        · obtain ⟨op', x', e⟩ := mem_messages (fun m => (hm m).1) x
          exact .inl ⟨op', x', associates_congr e y⟩
        · refine .inr ⟨x, fun op hop hr => ?_⟩
          obtain ⟨op', x', e⟩ := mem_messages (fun m => (hm m).2) hop
          exact y op' x' (rewrites_congr e hr)
      · rintro (⟨op, x, y⟩ | ⟨x, y⟩)
        · obtain ⟨op', x', e⟩ := mem_messages (fun m => (hm m).2) x
          exact .inl ⟨op', x', associates_congr e y⟩
        · refine .inr ⟨x, fun op hop hr => ?_⟩
          obtain ⟨op', x', e⟩ := mem_messages (fun m => (hm m).1) hop
          exact y op' x' (rewrites_congr e hr)
    · intro op h op' h' ha hr
      obtain ⟨x, hx, e⟩ := mem_messages (fun m => (hm m).2) h
      obtain ⟨x', hx', e'⟩ := mem_messages (fun m => (hm m).2) h'
      obtain ⟨e1, e2⟩ := hf x hx x' hx' k (rewrites_congr e ha) (rewrites_congr e' hr)
      exact ⟨e'.1.symm.trans (e1.trans e.1), e'.2.symm.trans (e2.trans e.2)⟩
  rw [e]; exact a2

/-- Two clients fill a dictionary, in two orders, with repetitions. -/
example [StdSort] : ∃ ops1 ops2 c1 c2, Reachable demo ∧
    Holds demo b!"d" (.dictionary b!"Character" b!"Integer" [(.character c!"k", .integer 1)]) ∧
    Serial [] demo [⟨0, b!"d associateValue: 5 withKey: 'm';", b!"null"⟩, ⟨1, b!"d removeKey: 'k';", b!"null"⟩] c1 ∧
    Serial [] demo [⟨0, b!"d removeKey: 'k';", b!"null"⟩, ⟨1, b!"d associateValue: 5 withKey: 'm';", b!"null"⟩,
      ⟨2, b!"d associateValue: 5 withKey: 'm';", b!"null"⟩] c2 ∧
    UpdatesOf b!"d" [⟨0, b!"d associateValue: 5 withKey: 'm';", b!"null"⟩, ⟨1, b!"d removeKey: 'k';", b!"null"⟩] ops1 ∧
    UpdatesOf b!"d" [⟨0, b!"d removeKey: 'k';", b!"null"⟩, ⟨1, b!"d associateValue: 5 withKey: 'm';", b!"null"⟩,
      ⟨2, b!"d associateValue: 5 withKey: 'm';", b!"null"⟩] ops2 ∧
    (∀ m, m ∈ messages ops1 ↔ m ∈ messages ops2) ∧
    (∀ op ∈ ops1, ∀ op' ∈ ops1, ∀ k, Rewrites b!"Character" b!"Integer" k op → Rewrites b!"Character" b!"Integer" k op' →
      op'.1 = op.1 ∧ op'.2.1 = op.2.1) := by
  have qa : ¬ Question b!"associateValue:withKey:" := by decide
  have qr : ¬ Question b!"removeKey:" := by decide
  have acc : ∀ i l, (⟨i, l, b!"null"⟩ : Request).accepted := fun i l => (by decide : b!"null" ∉ errorTexts)
  have S1 : Statement b!"d associateValue: 5 withKey: 'm';" b!"d" b!"associateValue:withKey:" [b!"5", b!"'m'"] := reads (by kernel_rfl)
  have S2 : Statement b!"d removeKey: 'k';" b!"d" b!"removeKey:" [b!"'k'"] := reads (by kernel_rfl)
  have dm : ∀ k, Denotes b!"Character" b!"'m'" k → k = .character c!"m" := fun k hk => denotes_unique hk (.character c!"m")
  have dk : ∀ k, Denotes b!"Character" b!"'k'" k → k = .character c!"k" := fun k hk => denotes_unique hk (.character c!"k")
  have first : ∀ k, Rewrites b!"Character" b!"Integer" k (b!"associateValue:withKey:", [b!"5", b!"'m'"], b!"null") → k = .character c!"m" := by
    rintro k (⟨v, a, b, _, h2, _, h4⟩ | h | ⟨a, h, _⟩)
    · cases h2; exact dm k h4
    · exact absurd h (by decide)
    · exact absurd h (by decide)
  have second : ∀ k, Rewrites b!"Character" b!"Integer" k (b!"removeKey:", [b!"'k'"], b!"null") → k = .character c!"k" := by
    rintro k (⟨v, a, b, h, _⟩ | h | ⟨a, _, h2, h3⟩)
    · exact absurd h (by decide)
    · exact absurd h (by decide)
    · cases h2; exact dk k h3
  refine ⟨_, _, _, _, demo_reachable, by decide +kernel,
    serially_serial (ls := [(0, b!"d associateValue: 5 withKey: 'm';"), (1, b!"d removeKey: 'k';")]) (c2 := { demo with vars := updateVar b!"d" (.dictionary b!"Character" b!"Integer" [(.character c!"m", .integer 5)]) demo.vars }) .nil (by simp) (by kernel_rfl),
    serially_serial (ls := [(0, b!"d removeKey: 'k';"), (1, b!"d associateValue: 5 withKey: 'm';"), (2, b!"d associateValue: 5 withKey: 'm';")]) (c2 := { demo with vars := updateVar b!"d" (.dictionary b!"Character" b!"Integer" [(.character c!"m", .integer 5)]) demo.vars }) .nil (by simp) (by kernel_rfl),
    .update S1 qa (acc _ _) (.update S2 qr (acc _ _) .nil),
    .update S2 qr (acc _ _) (.update S1 qa (acc _ _) (.update S1 qa (acc _ _) .nil)), ?_, ?_⟩
  · intro m; simp [messages]; tauto
  · intro op ho op' ho' k h h'
    simp only [List.mem_cons, List.not_mem_nil, or_false] at ho ho'
    rcases ho with rfl | rfl <;> rcases ho' with rfl | rfl
    · exact ⟨rfl, rfl⟩
    · exact absurd ((first k h).symm.trans (second k h')) (by decide)
    · exact absurd ((second k h).symm.trans (first k h')) (by decide)
    · exact ⟨rfl, rfl⟩

/-- C68: for sets of floats the order can matter, even with tolerance zero: 0 and -0 are the same element, and the one that was added first is kept. -/
theorem C68_float_sets_depend_on_the_order [StdSort] : ∃ c n c1 c2 log1 log2 ops1 ops2, Reachable c ∧ c.cfg.eps = .fin false 0 ∧
    Holds c n (.set b!"Float" []) ∧ Serial [] c log1 c1 ∧ Serial [] c log2 c2 ∧ UpdatesOf n log1 ops1 ∧ UpdatesOf n log2 ops2 ∧
    (messages ops1).Perm (messages ops2) ∧ (∀ op ∈ ops1, op.1 = b!"add:") ∧
    JustReplies [] c1 none b!"z get;" b!"{-0.000}" ∧ JustReplies [] c2 none b!"z get;" b!"{0.000}" := by
  have q : ¬ Question b!"add:" := by decide
  have acc : ∀ i l, (⟨i, l, b!"null"⟩ : Request).accepted := fun i l => (by decide : b!"null" ∉ errorTexts)
  have S1 : Statement b!"z add: 0.0;" b!"z" b!"add:" [b!"0.0"] := reads (by kernel_rfl)
  have S2 : Statement b!"z add: -0.0;" b!"z" b!"add:" [b!"-0.0"] := reads (by kernel_rfl)
  refine ⟨{ fresh with vars := [(b!"z", .set b!"Float" [])] }, b!"z", { fresh with vars := [(b!"z", .set b!"Float" [.float (.fin true 0)])] },
    { fresh with vars := [(b!"z", .set b!"Float" [.float (.fin false 0)])] },
    [⟨0, b!"z add: -0.0;", b!"null"⟩, ⟨1, b!"z add: 0.0;", b!"null"⟩], [⟨1, b!"z add: 0.0;", b!"null"⟩, ⟨0, b!"z add: -0.0;", b!"null"⟩], _, _,
    after_reachable (pwd := []) (s := none) (ts := [b!"Set<Float> create: z;"]) fresh_reachable (by kernel_rfl), rfl, by decide +kernel,
    serially_serial (ls := [(0, b!"z add: -0.0;"), (1, b!"z add: 0.0;")]) .nil (by simp) (by kernel_rfl),
    serially_serial (ls := [(1, b!"z add: 0.0;"), (0, b!"z add: -0.0;")]) .nil (by simp) (by kernel_rfl),
    .update S2 q (acc _ _) (.update S1 q (acc _ _) .nil), .update S1 q (acc _ _) (.update S2 q (acc _ _) .nil),
    .swap _ _ _, ?_, ⟨_, by unfold Replies; kernel_rfl, rfl, rfl⟩, ⟨_, by unfold Replies; kernel_rfl, rfl, rfl⟩⟩
  intro op ho
  simp only [List.mem_cons, List.not_mem_nil, or_false] at ho
  rcases ho with rfl | rfl <;> rfl

end Knuckle.Props
