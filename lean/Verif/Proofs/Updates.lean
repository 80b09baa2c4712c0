/-
Histories, seen from one variable.
-/
import Verif.Proofs.NonFloat
import Verif.Proofs.Replies
import Verif.Proofs.Errors
import Verif.Spec.Updates

namespace Knuckle

open Spec

variable {pwd : Str} {c c' : Ctx} {s s' : Option Session} {text n r : Str}

/-- An accepted message to a variable. -/
theorem accepted_behaves [StdSort] (hc : Reachable c) {i : Inst} (hn : Holds c n i) {name : Str} {args : List Str}
    (hst : Statement text n name args) (h : execute pwd c s text = .done (c', s', r)) (hr : r ∉ errorTexts) :
    ∃ i', Behaves c.cfg i name args (.gives i' r) ∧ OnlyChanged c c' n i' ∧ s' = s := by
  have no : ∀ e, e ∈ errorTexts → ¬ JustReplies pwd c s text e := by
    rintro e he ⟨x, hx, _⟩
    unfold Replies at hx; rw [h] at hx; cases hx; exact hr he
  rcases answers_any (pwd := pwd) (s := s) hc hn hst with
    ⟨_, h1⟩ | ⟨ks, _, ⟨_, h1⟩ | ⟨_, _, h1⟩ | ⟨_, _, h1⟩ | ⟨_, _, y, hb, h1⟩⟩
  · exact absurd h1 (no _ (by decide))
  · exact absurd h1 (no _ (by decide))
  · exact absurd h1 (no _ (by decide))
  · rw [h] at h1; cases h1
  · cases y with
    | gives i' r' =>
      obtain ⟨x, hx, ho⟩ := h1
      unfold Replies at hx; rw [h] at hx; cases hx
      exact ⟨i', hb, ho, rfl⟩
    | refuses => exact absurd h1 (no _ (by decide))
    | undefined => simp only [Answers] at h1; rw [h] at h1; cases h1

theorem onlyChanged_holds {i : Inst} (h : OnlyChanged c c' n i) : Holds c' n i := by
  unfold Holds; rw [h.2.2 n, if_pos rfl]

theorem onlyChanged_trans {c1 c2 : Ctx} {i j : Inst} (h : OnlyChanged c c1 n i) (h' : OnlyChanged c1 c2 n j) :
    OnlyChanged c c2 n j := by
  refine ⟨h'.1.trans h.1, h'.2.1.trans h.2.1, fun m => ?_⟩
  rw [h'.2.2]
  split
  · rfl
  · rename_i hm; rw [h.2.2, if_neg hm]

theorem refused_same [StdSort] (hc : Reachable c) (h : execute pwd c s text = .done (c', s', r))
    (hr : r ∈ errorTexts) : SameData c c' ∧ s' = s := by
  obtain ⟨x, rfl, hd | ⟨e, hd, rfl⟩⟩ := execute_done (reachable_inv hc) h
  · exact absurd hr (okReply_not_error (does_ok hd)).1
  · obtain ⟨rfl, rfl⟩ := does_thr hd
    exact ⟨sameData_record _ _ _, rfl⟩

theorem question_same [StdSort] {a name : Str} {args : List Str} (hc : Reachable c)
    (hs : Statement text a name args) (hq : Question name) (h : execute pwd c s text = .done (c', s', r)) :
    SameData c c' ∧ s' = s := by
  obtain ⟨x, rfl, hd | ⟨e, hd, rfl⟩⟩ := execute_done (reachable_inv hc) h
  · obtain ⟨rfl, rfl⟩ := does_question hs hq hd
    exact ⟨sameData_record _ _ _, rfl⟩
  · obtain ⟨rfl, rfl⟩ := does_thr hd
    exact ⟨sameData_record _ _ _, rfl⟩

theorem unconcerned_holds [StdSort] {i : Inst} (hc : Reachable c) (hn : Holds c n i) (hno : ¬ Concerns text n)
    (h : execute pwd c s text = .done (c', s', r)) : Holds c' n i := by
  unfold Holds at *
  obtain ⟨x, rfl, hd | ⟨e, hd, rfl⟩⟩ := execute_done (reachable_inv hc) h
  · rw [record_vars]
    rcases does_lookup (reachable_inv hc) hd n with h1 | ⟨_, h1⟩ | ⟨h1, _⟩
    · rw [h1]; exact hn
    · exact absurd h1 hno
    · rw [h1] at hn; cases hn
  · obtain ⟨rfl, rfl⟩ := does_thr hd
    rw [record_vars]; exact hn

/-- A chain of accepted messages to one value (the settings may change in between). -/
inductive Chain : Inst → List (Str × List Str × Str) → Inst → Prop
  | nil {i} : Chain i [] i
  | cons {cfg i i' i'' name args r ops} : WellTyped i → Behaves cfg i name args (.gives i' r) → ¬ Question name → Chain i' ops i'' →
      Chain i ((name, args, r) :: ops) i''

theorem updates_chain [StdSort] {ops : List (Str × List Str × Str)} (hc : Reachable c) {i : Inst} (hn : Holds c n i)
    (h : Updates n c ops c') : Reachable c' ∧ ∃ i', Holds c' n i' ∧ Chain i ops i' := by
  induction h generalizing i with
  | nil => exact ⟨hc, i, hn, .nil⟩
  | update he hst hq hr _ ih =>
    obtain ⟨j, hb, ho, rfl⟩ := accepted_behaves hc hn hst he hr
    obtain ⟨h1, k, h2, h3⟩ := ih (.step hc he) (onlyChanged_holds ho)
    exact ⟨h1, k, h2, .cons (holds_wellTyped hc hn) hb hq h3⟩
  | other he hr _ ih =>
    refine ih (.step hc he) ?_
    rcases hr with hr | ⟨_, _, hst, hq⟩ | hr
    · have := (refused_same hc he hr).1.1; unfold Holds; rw [this]; exact hn
    · have := (question_same hc hst hq he).1.1; unfold Holds; rw [this]; exact hn
    · exact unconcerned_holds hc hn hr he

/-- Every history in which the variable is not deleted is such a history. -/
theorem updates_of_history [StdSort] {h : List (Str × Str)} (hh : History c h c')
    (hd : ∀ x ∈ h, Deletes x.1 n → x.2 ∈ errorTexts) : ∃ ops, Updates n c ops c' := by
  induction hh with
  | nil => exact ⟨_, .nil⟩
  | @cons _ c c1 c2 _ _ text r h he _ ih =>
    obtain ⟨ops, ho⟩ := ih fun x hx => hd x (List.mem_cons_of_mem _ hx)
    by_cases hr : r ∈ errorTexts
    · exact ⟨ops, .other he (.inl hr) ho⟩
    · by_cases hcon : Concerns text n
      · have hdel : ¬ Deletes text n := fun h => hr (hd (text, r) (by simp) h)
        cases hcon with
        | @message name args hst =>
          by_cases hq : Question name
          · exact ⟨ops, .other he (.inr (.inl ⟨_, _, hst, hq⟩)) ho⟩
          · exact ⟨_, .update he hst hq hr ho⟩
        | delete hst => exact absurd (.delete hst) hdel
        | deleteNamespace hst hns => exact absurd (.deleteNamespace hst hns) hdel
      · exact ⟨ops, .other he (.inr (.inr hcon)) ho⟩

/-! ### Sets -/

theorem elementAfter_cons {t : Str} {l l1 : List Obj} {op : Str × List Str × Str} {ops : List (Str × List Str × Str)} {o : Obj}
    (h : o ∈ l1 ↔ Adds t o op ∨ (o ∈ l ∧ ¬ Removes t o op)) : ElementAfter t l (op :: ops) o ↔ ElementAfter t l1 ops o := by
  constructor
  · rintro (⟨p, x, q, e, ha, hq⟩ | ⟨h1, h2⟩)
    · cases p with
      | nil => cases e; exact .inr ⟨h.2 (.inl ha), hq⟩
      | cons y p => cases e; exact .inl ⟨p, x, q, rfl, ha, hq⟩
    · exact .inr ⟨h.2 (.inr ⟨h1, h2 op (by simp)⟩), fun x hx => h2 x (List.mem_cons_of_mem _ hx)⟩
  · rintro (⟨p, x, q, rfl, ha, hq⟩ | ⟨h1, h2⟩)
    · exact .inl ⟨op :: p, x, q, rfl, ha, hq⟩
    · rcases h.1 h1 with h3 | ⟨h3, h4⟩
      · exact .inl ⟨[], op, ops, rfl, h3, h2⟩
      · refine .inr ⟨h3, fun x hx => ?_⟩
        rcases List.mem_cons.1 hx with rfl | hx
        · exact h4
        · exact h2 x hx

open Classical in
theorem set_step {cfg : Cfg} {t : Str} (ht : t ≠ b!"Float") {l : List Obj} (hw : WellTyped (.set t l)) {name r : Str} {args : List Str}
    {i : Inst} (h : Behaves cfg (.set t l) name args (.gives i r)) (hq : ¬ Question name) :
    ∃ l1, i = .set t l1 ∧ ∀ o, o ∈ l1 ↔ Adds t o (name, args, r) ∨ (o ∈ l ∧ ¬ Removes t o (name, args, r)) := by
  generalize hx : Result.gives i r = x at h
  cases h with
  | @set _ _ _ _ m hm =>
    obtain ⟨w, e, rfl⟩ := map_gives hx.symm
    refine ⟨w, rfl, fun o => ?_⟩
    cases hm with
    | @add a k ha =>
      have hk := denotes_type ha
      have e1 : Adds t o (b!"add:", [a], r) ↔ o = k :=
        ⟨fun ⟨a', _, h2, h3⟩ => by cases h2; exact denotes_unique h3 ha, fun h => ⟨a, rfl, rfl, h ▸ ha⟩⟩
      have e2 : ¬ Removes t o (b!"add:", [a], r) := by
        rintro (h | ⟨_, h, _⟩)
        · exact absurd h (by simp)
        · exact absurd h (by simp)
      rw [e1]
      simp only [e2, not_false_eq_true, and_true]
      simp only [setMeaning] at e
      rw [if_pos (searchable_nonfloat cfg.eps t ht l hw.2.1 (hw.2.2 ht) k hk)] at e
      split at e
      · rename_i hp
        cases e
        obtain ⟨y, hy, hty⟩ := hp
        have := (tied_nonfloat cfg.eps t ht hk (hw.2.1 y hy)).1 hty
        subst this
        exact ⟨.inr, fun h => h.elim (fun e => e ▸ hy) id⟩
      · rename_i hp
        cases e
        simp only [List.mem_append, List.mem_filter, List.mem_cons]
        constructor
        · rintro (⟨h, _⟩ | h | ⟨h, _⟩)
          · exact .inr h
          · exact .inl h
          · exact .inr h
        · rintro (h | h)
          · exact .inr (.inl h)
          · by_cases h1 : less cfg.eps o k = true
            · exact .inl ⟨h, h1⟩
            · by_cases h2 : less cfg.eps k o = true
              · exact .inr (.inr ⟨h, h2⟩)
              · exact absurd ⟨o, h, by simp [tied, h1, h2]⟩ hp
    | @remove a k ha =>
      have hk := denotes_type ha
      have e1 : ¬ Adds t o (b!"remove:", [a], r) := by rintro ⟨_, h, _⟩; exact absurd h (by simp)
      have e2 : Removes t o (b!"remove:", [a], r) ↔ o = k := by
        constructor
        · rintro (h | ⟨a', _, h2, h3⟩)
          · exact absurd h (by simp)
          · cases h2; exact denotes_unique h3 ha
        · rintro rfl; exact .inr ⟨a, rfl, rfl, ha⟩
      rw [e2]
      simp only [e1, false_or]
      simp only [setMeaning] at e
      rw [if_pos (searchable_nonfloat cfg.eps t ht l hw.2.1 (hw.2.2 ht) k hk)] at e
      cases e
      rw [List.mem_filter]
      constructor
      · rintro ⟨h1, h2⟩
        refine ⟨h1, ?_⟩
        rintro rfl
        rw [(tied_nonfloat cfg.eps t ht hk hk).2 rfl] at h2; cases h2
      · rintro ⟨h1, h2⟩
        refine ⟨h1, ?_⟩
        rw [Bool.not_eq_true']
        by_contra h3
        exact h2 ((tied_nonfloat cfg.eps t ht hk (hw.2.1 o h1)).1 (by simpa using h3)).symm
    | clear =>
      have e1 : ¬ Adds t o (b!"clear", [], r) := by rintro ⟨_, h, _⟩; exact absurd h (by simp)
      have e2 : Removes t o (b!"clear", [], r) := .inl rfl
      simp only [e1, e2, not_true_eq_false, and_false, or_false]
      cases e
      simp
    | _ => exact absurd (by decide) hq

theorem chain_set {t : Str} (ht : t ≠ b!"Float") {l : List Obj} {ops : List (Str × List Str × Str)} {i : Inst}
    (h : Chain (.set t l) ops i) : ∃ l', i = .set t l' ∧ ∀ o, o ∈ l' ↔ ElementAfter t l ops o := by
  generalize hj : Inst.set t l = j at h
  induction h generalizing l with
  | nil =>
    subst hj
    refine ⟨l, rfl, fun o => ⟨fun h => .inr ⟨h, fun x hx => by cases hx⟩, ?_⟩⟩
    rintro (⟨p, x, q, e, _⟩ | ⟨h, _⟩)
    · cases p <;> cases e
    · exact h
  | cons hw hb hq _ ih =>
    subst hj
    obtain ⟨l1, rfl, h1⟩ := set_step ht hw hb hq
    obtain ⟨l', rfl, h2⟩ := ih rfl
    exact ⟨l', rfl, fun o => (h2 o).trans (elementAfter_cons (h1 o)).symm⟩

/-! ### Dictionaries -/

theorem valueAfter_cons {t u : Str} {l l1 : List (Obj × Obj)} {op : Str × List Str × Str} {ops : List (Str × List Str × Str)}
    {k v : Obj} (h : (k, v) ∈ l1 ↔ Associates t u k v op ∨ ((k, v) ∈ l ∧ ¬ Rewrites t u k op)) :
    ValueAfter t u l (op :: ops) k v ↔ ValueAfter t u l1 ops k v := by
  constructor
  · rintro (⟨p, x, q, e, ha, hq⟩ | ⟨h1, h2⟩)
    · cases p with
      | nil => cases e; exact .inr ⟨h.2 (.inl ha), hq⟩
      | cons y p => cases e; exact .inl ⟨p, x, q, rfl, ha, hq⟩
    · exact .inr ⟨h.2 (.inr ⟨h1, h2 op (by simp)⟩), fun x hx => h2 x (List.mem_cons_of_mem _ hx)⟩
  · rintro (⟨p, x, q, rfl, ha, hq⟩ | ⟨h1, h2⟩)
    · exact .inl ⟨op :: p, x, q, rfl, ha, hq⟩
    · rcases h.1 h1 with h3 | ⟨h3, h4⟩
      · exact .inl ⟨[], op, ops, rfl, h3, h2⟩
      · refine .inr ⟨h3, fun x hx => ?_⟩
        rcases List.mem_cons.1 hx with rfl | hx
        · exact h4
        · exact h2 x hx

theorem dict_searchable {t u : Str} (ht : t ≠ b!"Float") (eps : Fl) {l : List (Obj × Obj)} (hw : WellTyped (.dictionary t u l))
    {k : Obj} (hk : HasType t k) : Searchable (less eps) (l.map (·.1)) k := by
  refine searchable_nonfloat eps t ht _ ?_ ?_ k hk
  · intro x hx; obtain ⟨y, hy, rfl⟩ := List.mem_map.1 hx; exact (hw.2.2.1 y hy).1
  · exact List.pairwise_map.2 (hw.2.2.2 ht)

/-- Keys that are not floats have one value. -/
theorem dict_functional {t u : Str} (ht : t ≠ b!"Float") {l : List (Obj × Obj)} (hw : WellTyped (.dictionary t u l)) {k v v' : Obj}
    (h : (k, v) ∈ l) (h' : (k, v') ∈ l) : v = v' := by
  have hp := hw.2.2.2 ht
  have hty : ∀ x ∈ l, HasType t x.1 := fun x hx => (hw.2.2.1 x hx).1
  clear hw
  induction l with
  | nil => cases h
  | cons x l ih =>
    have irr := (natLt_sto t ht).irr k
    obtain ⟨h1, h2⟩ := List.pairwise_cons.1 hp
    have hk : HasType t k := hty _ h
    rcases List.mem_cons.1 h with rfl | h3
    · rcases List.mem_cons.1 h' with e | h4
      · cases e; rfl
      · have := h1 _ h4; rw [irr hk] at this; cases this
    · rcases List.mem_cons.1 h' with rfl | h4
      · have := h1 _ h3; rw [irr hk] at this; cases this
      · exact ih h3 h4 h2 fun x hx => hty x (List.mem_cons_of_mem _ hx)

open Classical in
theorem dict_step {cfg : Cfg} {t u : Str} (ht : t ≠ b!"Float") {l : List (Obj × Obj)} (hw : WellTyped (.dictionary t u l))
    {name r : Str} {args : List Str} {i : Inst} (h : Behaves cfg (.dictionary t u l) name args (.gives i r)) (hq : ¬ Question name) :
    ∃ l1, i = .dictionary t u l1 ∧ ∀ k v, (k, v) ∈ l1 ↔
      Associates t u k v (name, args, r) ∨ ((k, v) ∈ l ∧ ¬ Rewrites t u k (name, args, r)) := by
  generalize hx : Result.gives i r = x at h
  have hty : ∀ x ∈ l, HasType t x.1 := fun x hx => (hw.2.2.1 x hx).1
  cases h with
  | @dictionary _ _ _ _ _ m hm =>
    obtain ⟨w, e, rfl⟩ := map_gives hx.symm
    refine ⟨w, rfl, fun k v => ?_⟩
    cases hm with
    | @associate a v0 b k0 ha hb =>
      have hk := denotes_type hb
      have e1 : ∀ v, Associates t u k v (b!"associateValue:withKey:", [a, b], r) ↔ k = k0 ∧ v = v0 := fun v =>
        ⟨fun ⟨a', b', _, h2, h3, h4⟩ => by cases h2; exact ⟨denotes_unique h4 hb, denotes_unique h3 ha⟩,
          fun ⟨h1, h2⟩ => ⟨a, b, rfl, rfl, h2 ▸ ha, h1 ▸ hb⟩⟩
      have e2 : Rewrites t u k (b!"associateValue:withKey:", [a, b], r) ↔ k = k0 := by
        constructor
        · rintro (⟨v, h⟩ | (h | ⟨_, h, _⟩))
          · exact ((e1 v).1 h).1
          · exact absurd h (by simp)
          · exact absurd h (by simp)
        · intro h; exact .inl ⟨v0, (e1 v0).2 ⟨h, rfl⟩⟩
      rw [e1, e2]
      simp only [dictMeaning] at e
      rw [if_pos (dict_searchable ht cfg.eps hw hk)] at e
      split at e
      · rename_i hp
        cases e
        obtain ⟨y, hy, hty'⟩ := hp
        have hy0 := (tied_nonfloat cfg.eps t ht hk (hty y hy)).1 hty'
        rw [List.mem_map]
        constructor
        · rintro ⟨x, hx, e⟩
          split at e
          · rename_i h1
            have := (tied_nonfloat cfg.eps t ht hk (hty x hx)).1 h1
            cases e; exact .inl ⟨this.symm, rfl⟩
          · rename_i h1
            subst e
            refine .inr ⟨hx, ?_⟩
            intro h2
            exact h1 ((tied_nonfloat cfg.eps t ht hk (hty _ hx)).2 h2.symm)
        · rintro (⟨rfl, rfl⟩ | ⟨h1, h2⟩)
          · exact ⟨y, hy, by rw [if_pos hty', ← hy0]⟩
          · refine ⟨(k, v), h1, if_neg ?_⟩
            intro h3
            exact h2 ((tied_nonfloat cfg.eps t ht hk (hty _ h1)).1 h3).symm
      · rename_i hp
        cases e
        have hne : ∀ x ∈ l, x.1 ≠ k0 := fun x hx h => hp ⟨x, hx, (tied_nonfloat cfg.eps t ht hk (hty x hx)).2 h.symm⟩
        simp only [List.mem_append, List.mem_filter, List.mem_cons, Prod.mk.injEq]
        constructor
        · rintro (⟨h, _⟩ | h | ⟨h, _⟩)
          · exact .inr ⟨h, hne _ h⟩
          · exact .inl h
          · exact .inr ⟨h, hne _ h⟩
        · rintro (h | ⟨h, h0⟩)
          · exact .inr (.inl h)
          · by_cases h1 : less cfg.eps k k0 = true
            · exact .inl ⟨h, h1⟩
            · by_cases h2 : less cfg.eps k0 k = true
              · exact .inr (.inr ⟨h, h2⟩)
              · exact absurd ⟨(k, v), h, by simp [tied, h1, h2]⟩ hp
    | @removeKey a k0 ha =>
      have hk := denotes_type ha
      have e1 : ∀ v, ¬ Associates t u k v (b!"removeKey:", [a], r) := by rintro v ⟨_, _, h, _⟩; exact absurd h (by simp)
      have e2 : Rewrites t u k (b!"removeKey:", [a], r) ↔ k = k0 := by
        constructor
        · rintro (⟨v, h⟩ | (h | ⟨a', _, h2, h3⟩))
          · exact absurd h (e1 v)
          · exact absurd h (by simp)
          · cases h2; exact denotes_unique h3 ha
        · rintro rfl; exact .inr (.inr ⟨a, rfl, rfl, ha⟩)
      rw [e2]
      simp only [e1, false_or]
      simp only [dictMeaning] at e
      rw [if_pos (dict_searchable ht cfg.eps hw hk)] at e
      cases e
      rw [List.mem_filter]
      constructor
      · rintro ⟨h1, h2⟩
        refine ⟨h1, ?_⟩
        rintro rfl
        rw [(tied_nonfloat cfg.eps t ht hk hk).2 rfl] at h2; cases h2
      · rintro ⟨h1, h2⟩
        refine ⟨h1, ?_⟩
        rw [Bool.not_eq_true']
        by_contra h3
        exact h2 ((tied_nonfloat cfg.eps t ht hk (hty _ h1)).1 (by simpa using h3)).symm
    | clear =>
      have e1 : ¬ Associates t u k v (b!"clear", [], r) := by rintro ⟨_, _, h, _⟩; exact absurd h (by simp)
      have e2 : Rewrites t u k (b!"clear", [], r) := .inr (.inl rfl)
      simp only [e1, e2, not_true_eq_false, and_false, or_false]
      cases e
      simp
    | _ => exact absurd (by decide) hq

theorem chain_dict {t u : Str} (ht : t ≠ b!"Float") {l : List (Obj × Obj)} {ops : List (Str × List Str × Str)} {i : Inst}
    (h : Chain (.dictionary t u l) ops i) : ∃ l', i = .dictionary t u l' ∧ ∀ k v, (k, v) ∈ l' ↔ ValueAfter t u l ops k v := by
  generalize hj : Inst.dictionary t u l = j at h
  induction h generalizing l with
  | nil =>
    subst hj
    refine ⟨l, rfl, fun k v => ⟨fun h => .inr ⟨h, fun x hx => by cases hx⟩, ?_⟩⟩
    rintro (⟨p, x, q, e, _⟩ | ⟨h, _⟩)
    · cases p <;> cases e
    · exact h
  | cons hw hb hq _ ih =>
    subst hj
    obtain ⟨l1, rfl, h1⟩ := dict_step ht hw hb hq
    obtain ⟨l', rfl, h2⟩ := ih rfl
    exact ⟨l', rfl, fun k v => (h2 k v).trans (valueAfter_cons (h1 k v)).symm⟩

/-! ### Texts -/

theorem repr_nonfloat {t : Str} (ht : t ≠ b!"Float") {o : Obj} (ho : HasType t o) (p q : Int) : o.repr p = o.repr q := by
  cases o with
  | float x => exact absurd ho.1.symm ht
  | _ => rfl

theorem natStr_digit (k : Nat) : ∃ d r, natStr k = d :: r ∧ Digit d := by
  obtain ⟨h1, h2, _⟩ := natStr_spec k
  cases h : natStr k with
  | nil => exact absurd h h2
  | cons d r => rw [h] at h1; exact ⟨d, r, rfl, h1 d (by simp)⟩

theorem repr_ne_null (p : Int) (o : Obj) : o.repr p ≠ b!"null" := by
  have dig : ¬ Digit c!"n" := by unfold Digit; decide
  cases o with
  | boolean b => cases b <;> simp only [Obj.repr] <;> decide
  | character b => intro h; simp [Obj.repr, charStr] at h
  | integer n =>
    intro h
    simp only [Obj.repr] at h
    unfold intStr at h
    obtain ⟨d, r, e, hd⟩ := natStr_digit n.natAbs
    rw [e] at h
    split at h
    · injection h with h _; revert h; decide
    · injection h with h _; subst h; exact dig hd
  | float x =>
    intro h
    simp only [Obj.repr] at h
    cases x with
    | nan => simp only [fmtFixed] at h; revert h; decide
    | inf s => cases s <;> simp only [fmtFixed] at h <;> revert h <;> decide
    | fin s k =>
      simp only [fmtFixed] at h
      obtain ⟨d, r, e, hd⟩ := natStr_digit (rhe (k * 10 ^ (if p < 0 then 6 else p.toNat)) oneK / 10 ^ (if p < 0 then 6 else p.toNat))
      rw [e] at h
      split at h
      · injection h with h _; revert h; decide
      · injection h with h _; subst h; exact dig hd
  | string v => intro h; simp only [Obj.repr, quoted] at h; injection h with h _; revert h; decide

end Knuckle
