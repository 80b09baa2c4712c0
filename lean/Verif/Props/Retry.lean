/-
C69: which requests can be repeated without harm.
-/
import Verif.Spec.Retry
import Verif.Proofs.Data
import Verif.Proofs.Serial
import Verif.Proofs.Updates
import Verif.Props.Containers

namespace Knuckle.Props

open Spec

variable {pwd : Str} {c c1 : Ctx} {s s1 : Option Session} {text r n : Str}

theorem searchable_sub {lt : Obj → Obj → Bool} {l l' : List Obj} {k : Obj} (h : Searchable lt l k) (hs : List.Sublist l' l) :
    Searchable lt l' k := by
  have m : ∀ x ∈ k :: l', x ∈ k :: l := by
    intro x hx
    rcases List.mem_cons.1 hx with rfl | hx
    · simp
    · exact List.mem_cons_of_mem _ (hs.subset hx)
  obtain ⟨⟨a1, a2, a3⟩, a4⟩ := h
  exact ⟨⟨fun a ha => a1 a (m a ha), fun a ha b hb c hc => a2 a (m a ha) b (m b hb) c (m c hc),
    fun a ha b hb c hc => a3 a (m a ha) b (m b hb) c (m c hc)⟩, a4.sublist hs⟩

theorem searchable_insert {lt : Obj → Obj → Bool} {l : List Obj} {k : Obj} (h : Searchable lt l k) :
    Searchable lt (l.filter (lt · k) ++ k :: l.filter (lt k ·)) k := by
  have m : ∀ x ∈ k :: (l.filter (lt · k) ++ k :: l.filter (lt k ·)), x ∈ k :: l := by
    intro x hx
    simp only [List.mem_cons, List.mem_append, List.mem_filter] at hx ⊢
    tauto
  obtain ⟨⟨a1, a2, a3⟩, a4⟩ := h
  refine ⟨⟨fun a ha => a1 a (m a ha), fun a ha b hb c hc => a2 a (m a ha) b (m b hb) c (m c hc),
    fun a ha b hb c hc => a3 a (m a ha) b (m b hb) c (m c hc)⟩, ?_⟩
  rw [List.pairwise_append, List.pairwise_cons]
  refine ⟨a4.filter _, ⟨fun b hb => (List.mem_filter.1 hb).2, a4.filter _⟩, fun a ha b hb => ?_⟩
  obtain ⟨ha1, ha2⟩ := List.mem_filter.1 ha
  rcases List.mem_cons.1 hb with rfl | hb
  · exact ha2
  · obtain ⟨hb1, hb2⟩ := List.mem_filter.1 hb
    exact a2 a (by simp [ha1]) k (by simp) b (by simp [hb1]) ha2 hb2

theorem tied_self {lt : Obj → Obj → Bool} {l : List Obj} {k : Obj} (h : Searchable lt l k) : tied lt k k = true := by
  have : ¬ lt k k = true := h.1.1 k (by simp)
  simp only [tied, this]; rfl

/-- A `repeatable` message changes nothing the second time. -/
theorem retry_variable [StdSort] {i : Inst} {name : Str} {args : List Str} (hc : Reachable c) (hn : Holds c n i)
    (hst : Statement text n name args) (h : execute pwd c s text = .done (c1, s1, r)) (hr : r ∉ errorTexts)
    (hq : name ∈ repeatable i) : r = b!"null" ∧ JustReplies pwd c1 s1 text b!"null" := by
  obtain ⟨i', hb, ho, rfl⟩ := accepted_behaves hc hn hst h hr
  have hc1 : Reachable c1 := .step hc h
  have hn1 := onlyChanged_holds ho
  have hcfg := ho.1
  have key : ∀ {x : Result Inst} {q : Str}, x = .gives i' q → Answers pwd c1 s1 text n x → JustReplies pwd c1 s1 text q :=
    fun e h => justReplies_of hc1 hn1 (e ▸ h)
  generalize hx : Result.gives i' r = x at hb
  cases hb with
  | boolean hm =>
    obtain ⟨w, e, rfl⟩ := map_gives hx.symm
    replace hq : name ∈ [b!"set:"] := hq
    have a := answers_bool (pwd := pwd) (s := s1) hc1 hn1 hst hm
    cases hm <;> first | exact absurd hq (by decide) | (cases e; exact ⟨rfl, key rfl a⟩)
  | character hm =>
    obtain ⟨w, e, rfl⟩ := map_gives hx.symm
    replace hq : name ∈ [b!"set:"] := hq
    have a := answers_char (pwd := pwd) (s := s1) hc1 hn1 hst hm
    cases hm <;> first | exact absurd hq (by decide) | (cases e; exact ⟨rfl, key rfl a⟩)
  | integer hm =>
    obtain ⟨w, e, rfl⟩ := map_gives hx.symm
    replace hq : name ∈ [b!"set:"] := hq
    have a := answers_int (pwd := pwd) (s := s1) hc1 hn1 hst hm
    cases hm <;> first | exact absurd hq (by decide) | (cases e; exact ⟨rfl, key rfl a⟩)
  | float hm =>
    obtain ⟨w, e, rfl⟩ := map_gives hx.symm
    replace hq : name ∈ [b!"set:"] := hq
    have a := answers_flt (pwd := pwd) (s := s1) hc1 hn1 hst hm
    cases hm <;> first
      | exact absurd hq (by decide)
      | (simp only [fltMeaning, Result.gives.injEq] at e; obtain ⟨e, rfl⟩ := e
         refine ⟨rfl, key ?_ a⟩; simp only [fltMeaning, Result.map, e])
  | string hm =>
    obtain ⟨w, e, rfl⟩ := map_gives hx.symm
    replace hq : name ∈ [b!"set:", b!"clear", b!"eraseFromIndex:"] := hq
    have a := answers_str (pwd := pwd) (s := s1) hc1 hn1 hst hm
    cases hm <;> first | exact absurd hq (by decide) | skip
    · cases e; exact ⟨rfl, key rfl a⟩
    · simp only [strMeaning] at e
      split at e
      · rename_i hi
        cases e
        refine ⟨rfl, key ?_ a⟩
        simp only [strMeaning, List.length_take]
        rw [if_pos (by omega), List.take_take, Nat.min_self]; rfl
      · cases e
    · cases e; exact ⟨rfl, key rfl a⟩
  | @vector t l _ _ m hm =>
    obtain ⟨w, e, rfl⟩ := map_gives hx.symm
    have a := answers_vec (pwd := pwd) (s := s1) hc1 hn1 hst hm
    rw [hcfg] at a
    have hq' : name ∈ [b!"clear", b!"removeAll:", b!"replaceAll:with:", b!"eraseFromIndex:", b!"sort"] := by
      simp only [repeatable] at hq
      split at hq <;> simp at hq ⊢ <;> tauto
    cases hm <;> first | exact absurd hq' (by decide) | skip
    · simp only [vecMeaning] at e
      split at e
      · rename_i hi
        cases e
        refine ⟨rfl, key ?_ a⟩
        simp only [vecMeaning, List.length_take]
        rw [if_pos (by omega), List.take_take, Nat.min_self]; rfl
      · cases e
    · simp only [vecMeaning, Result.gives.injEq] at e
      obtain ⟨e, rfl⟩ := e
      refine ⟨rfl, key ?_ a⟩
      simp only [vecMeaning, ← e, List.filter_filter, Bool.and_self]; rfl
    · simp only [vecMeaning, Result.gives.injEq] at e
      obtain ⟨e, rfl⟩ := e
      refine ⟨rfl, key ?_ a⟩
      simp only [vecMeaning, ← e, List.map_map, Result.map]
      congr 2
      apply List.map_congr_left
      intro x _
      simp only [Function.comp]
      split
      · split <;> rfl
      · rfl
    · cases e; exact ⟨rfl, key rfl a⟩
  | @sort t l l' h1 h2 h3 =>
    cases hx
    have ht : t ≠ b!"Float" := by
      intro e; subst e; exact absurd (show b!"sort" ∈ [b!"clear", b!"removeAll:", b!"replaceAll:with:", b!"eraseFromIndex:"] from hq) (by decide)
    obtain ⟨c2, h4, h5⟩ := C21_sort_twice (pwd := pwd) (s := s1) ht hc hn hst hst
    unfold Replies at h4
    rw [h] at h4
    cases h4
    exact ⟨rfl, h5⟩
  | sortUndefined => cases hx
  | @set t l _ _ m hm =>
    obtain ⟨w, e, rfl⟩ := map_gives hx.symm
    replace hq : name ∈ [b!"add:", b!"remove:", b!"clear"] := hq
    have a := answers_set (pwd := pwd) (s := s1) hc1 hn1 hst hm
    rw [hcfg] at a
    cases hm <;> first | exact absurd hq (by decide) | skip
    · simp only [setMeaning] at e
      split at e
      · rename_i o _ hs
        split at e
        · rename_i hex
          cases e
          refine ⟨rfl, key ?_ a⟩
          simp only [setMeaning, if_pos hs, if_pos hex]; rfl
        · simp only [Result.gives.injEq] at e
          obtain ⟨e, rfl⟩ := e
          refine ⟨rfl, key ?_ a⟩
          have h1 := searchable_insert hs
          rw [e] at h1
          have h2 : ∃ x ∈ w, tied (less c.cfg.eps) o x = true := ⟨o, by rw [← e]; simp, tied_self hs⟩
          simp only [setMeaning, if_pos h1, if_pos h2]; rfl
      · cases e
    · simp only [setMeaning] at e
      split at e
      · rename_i o _ hs
        simp only [Result.gives.injEq] at e
        obtain ⟨e, rfl⟩ := e
        refine ⟨rfl, key ?_ a⟩
        have h1 := searchable_sub (l' := w) hs (by rw [← e]; exact List.filter_sublist)
        simp only [setMeaning, if_pos h1]
        rw [← e, List.filter_filter]
        simp only [Bool.and_self]; rfl
      · cases e
    · cases e; exact ⟨rfl, key rfl a⟩
  | @dictionary t u l _ _ m hm =>
    obtain ⟨w, e, rfl⟩ := map_gives hx.symm
    replace hq : name ∈ [b!"associateValue:withKey:", b!"removeKey:", b!"clear"] := hq
    have a := answers_dict (pwd := pwd) (s := s1) hc1 hn1 hst hm
    rw [hcfg] at a
    cases hm <;> first | exact absurd hq (by decide) | skip
    · simp only [dictMeaning] at e
      split at e
      · rename_i v _ k _ _ hs
        split at e
        · rename_i hex
          simp only [Result.gives.injEq] at e
          obtain ⟨e, rfl⟩ := e
          refine ⟨rfl, key ?_ a⟩
          have hk : w.map (·.1) = l.map (·.1) := by
            rw [← e, List.map_map]
            apply List.map_congr_left
            intro x _; simp only [Function.comp]; split <;> rfl
          have h1 : ∃ x ∈ w, tied (less c.cfg.eps) k x.1 = true := by
            obtain ⟨x, hx1, hx2⟩ := hex
            refine ⟨(x.1, v), ?_, hx2⟩
            rw [← e]
            exact List.mem_map.2 ⟨x, hx1, by rw [if_pos hx2]⟩
          have hs' : Searchable (less c.cfg.eps) (w.map (·.1)) k := by rw [hk]; exact hs
          have hw : (w.map fun x => if tied (less c.cfg.eps) k x.1 = true then (x.1, v) else x) = w := by
            conv => lhs; rw [← e, List.map_map]
            conv => rhs; rw [← e]
            apply List.map_congr_left
            intro x _; simp only [Function.comp]
            by_cases hx : tied (less c.cfg.eps) k x.1 = true <;> simp [hx]
          simp only [dictMeaning, if_pos hs', if_pos h1, hw]; rfl
        · simp only [Result.gives.injEq] at e
          obtain ⟨e, rfl⟩ := e
          refine ⟨rfl, key ?_ a⟩
          have hk : w.map (·.1) = (l.map (·.1)).filter (less c.cfg.eps · k) ++ k :: (l.map (·.1)).filter (less c.cfg.eps k ·) := by
            rw [← e, List.map_append, List.map_cons, List.filter_map, List.filter_map]; rfl
          have h1 := searchable_insert hs
          rw [← hk] at h1
          have h2 : ∃ x ∈ w, tied (less c.cfg.eps) k x.1 = true := ⟨(k, v), by rw [← e]; simp, tied_self hs⟩
          have hw : (w.map fun x => if tied (less c.cfg.eps) k x.1 = true then (x.1, v) else x) = w := by
            conv => rhs; rw [← List.map_id w]
            apply List.map_congr_left
            intro x hx
            by_cases ht : tied (less c.cfg.eps) k x.1 = true
            · rw [if_pos ht]
              simp only [tied, Bool.and_eq_true, Bool.not_eq_true'] at ht
              rw [← e] at hx
              simp only [List.mem_append, List.mem_cons, List.mem_filter] at hx
              rcases hx with hx | rfl | hx
              · rw [hx.2] at ht; simp at ht
              · rfl
              · rw [hx.2] at ht; simp at ht
            · rw [if_neg ht]; rfl
          simp only [dictMeaning, if_pos h1, if_pos h2, hw]; rfl
      · cases e
    · simp only [dictMeaning] at e
      split at e
      · rename_i k _ hs
        simp only [Result.gives.injEq] at e
        obtain ⟨e, rfl⟩ := e
        refine ⟨rfl, key ?_ a⟩
        have h1 := searchable_sub (l' := w.map (·.1)) hs (by rw [← e]; exact List.filter_sublist.map _)
        simp only [dictMeaning, if_pos h1]
        rw [← e, List.filter_filter]
        simp only [Bool.and_self]; rfl
      · cases e
    · cases e; exact ⟨rfl, key rfl a⟩

/-- A message to `Context` changes nothing the second time. -/
theorem retry_context {d x : Ctx} {name : Str} {args : List Str} (h : CtxDoes c name args (.ret x r))
    (hd : SameData x d) {z : Run Ctx} (h2 : CtxDoes d name args z) :
    z ≠ .ub ∧ (∀ y q, z = .ret y q → SameData d y) ∧ ∀ y e, z = .thr y e → y = d := by
  obtain ⟨hv, hcfg⟩ := hd
  have thr : ∀ y e, z = .thr y e → y = d := by
    intro y e hz
    subst hz
    generalize hz : Run.thr y e = z at h2
    cases h2 <;> cases hz <;> rfl
  have nub : z ≠ .ub := by
    intro hz
    subst hz
    generalize hz : Run.ub = z at h2
    cases h2 with
    | undefined ho =>
      generalize hy : Run.ret x r = w at h
      cases h with
      | setPrecision h1 _ => exact denotes_not_outOfRange h1 ho
      | _ => cases hy
    | _ => cases hz
  have ret : ∀ y q, z = .ret y q → SameData d y := by
    intro y q hz
    subst hz
    generalize hy : Run.ret x r = w at h
    generalize hz : Run.ret y q = z at h2
    cases h2 with
    | listNamespaces => cases hz; exact ⟨rfl, rfl⟩
    | listVariables => cases hz; exact ⟨rfl, rfl⟩
    | listOf => cases hz; exact ⟨rfl, rfl⟩
    | getPrecision => cases hz; exact ⟨rfl, rfl⟩
    | getTolerance => cases hz; exact ⟨rfl, rfl⟩
    | @delete n _ hn =>
      cases hz
      generalize ha : [n] = args at h
      generalize hb : b!"deleteVariable:" = name at h
      cases h with
      | delete =>
        cases ha; cases hy
        rw [hv] at hn
        simp only [List.mem_map, List.mem_filter] at hn
        obtain ⟨v, ⟨_, h1⟩, h2⟩ := hn
        simp [h2] at h1
      | _ => cases hy <;> exact absurd hb (by decide)
    | @deleteOf n _ =>
      cases hz
      generalize ha : [n] = args at h
      generalize hb : b!"deleteVariablesOfNamespace:" = name at h
      cases h with
      | deleteOf =>
        cases ha; cases hy
        refine ⟨?_, rfl⟩
        simp only at hv ⊢
        rw [hv, List.filter_filter]
        simp only [Bool.and_self]
      | _ => cases hy <;> exact absurd hb (by decide)
    | @setPrecision a p h1 _ =>
      cases hz
      generalize ha : [a] = args at h
      generalize hb : b!"setFloatPrecision:" = name at h
      cases h with
      | setPrecision h2 _ =>
        cases ha; cases hy
        have := denotes_unique h1 h2
        cases this
        exact ⟨rfl, by simp only [hcfg]⟩
      | _ => cases hy <;> exact absurd hb (by decide)
    | @setTolerance a h1 _ =>
      cases hz
      generalize ha : [a] = args at h
      generalize hb : b!"setFloatComparisonTolerance:" = name at h
      cases h with
      | setTolerance h2 _ =>
        cases ha; cases hy
        exact ⟨rfl, by simp only [hcfg]⟩
      | _ => cases hy <;> exact absurd hb (by decide)
    | _ => cases hz
  exact ⟨nub, ret, thr⟩

/-- C69: a request that may be repeated can be: sent again by the same client, right after it was carried out (accepted or
refused), it is defined, and changes neither data nor session. -/
theorem C69_retry [StdSort] (hc : Reachable c) (h : execute pwd c s text = .done (c1, s1, r)) (hq : Retriable c text) :
    ∃ c2 r2, execute pwd c1 s1 text = .done (c2, s1, r2) ∧ SameData c1 c2 := by
  have hc1 : Reachable c1 := .step hc h
  by_cases hr : r ∈ errorTexts
  · obtain ⟨hs, rfl⟩ := refused_same hc h hr
    have e := execute_sameData pwd s1 text hs
    rw [h] at e
    cases h2 : execute pwd c1 s1 text with
    | ub => rw [h2] at e; exact e.elim
    | done y =>
      obtain ⟨c2, s2, r2⟩ := y
      rw [h2] at e
      obtain ⟨e1, rfl, rfl⟩ := e
      exact ⟨c2, _, rfl, e1⟩
  obtain ⟨x, rfl, hd | ⟨e, _, rfl⟩⟩ := execute_done (reachable_inv hc) h
  swap
  · exact absurd (exc_text_error e) hr
  generalize hy : Run.ret (x, s1) r = y at hd
  cases hd with
  | @created a m l v i hst ht hcr hl =>
    cases hy
    have e := execute_creates (pwd := pwd) (s := s) (reachable_inv hc1) hst hcr
    simp only [record_vars, mapInsert_lookup _ _ _ (reachable_inv hc).asc, if_true] at e
    split at e <;> exact ⟨_, _, e, sameData_record _ _ _⟩
  | @kept a m l v i j hst ht hcr hl hs =>
    cases hy
    have e := execute_creates (pwd := pwd) (s := s) (reachable_inv hc1) hst hcr
    simp only [record_vars, hl, hs, if_true] at e
    exact ⟨_, _, e, sameData_record _ _ _⟩
  | @context m l z hst hz =>
    cases z with
    | ret w q =>
      cases hy
      obtain ⟨y, hy, he⟩ := execute_does pwd (reachable_inv hc1) s text
      generalize hd : x.record text r = d at *
      have hxd : SameData x d := hd ▸ sameData_record _ _ _
      cases hy with
      | @context m' l' z' hst' hz' =>
        obtain ⟨_, rfl, rfl⟩ := statement_unique hst hst'
        obtain ⟨h1, h2, h3⟩ := retry_context hz hxd hz'
        cases z' with
        | ub => exact absurd rfl h1
        | ret y q => exact ⟨_, _, he, sameData_trans (h2 y q rfl) (sameData_record _ _ _)⟩
        | thr y e =>
          have := h3 y e rfl
          subst this
          exact ⟨_, _, he, sameData_record _ _ _⟩
      | syntaxError hn => exact absurd ⟨_, _, _, hst⟩ hn
      | connection hst' => exact absurd (statement_unique hst hst').1 (by decide)
      | noConnection hst' => exact absurd (statement_unique hst hst').1 (by decide)
      | typeUndefined hst' ht => rw [← (statement_unique hst hst').1, ← isType_iff] at ht; exact absurd ht (by decide)
      | created hst' ht => rw [← (statement_unique hst hst').1, ← isType_iff] at ht; exact absurd ht (by decide)
      | varUndefined hst' ht => rw [← (statement_unique hst hst').1, ← isVariable_iff] at ht; exact absurd ht (by decide)
      | varBehavesUndefined hst' ht => rw [← (statement_unique hst hst').1, ← isVariable_iff] at ht; exact absurd ht (by decide)
      | varGives hst' ht => rw [← (statement_unique hst hst').1, ← isVariable_iff] at ht; exact absurd ht (by decide)
      | _ => exact ⟨_, _, he, sameData_record _ _ _⟩
    | thr => cases hy
    | ub => cases hy
  | @varGives a m l i ks i' o hst hv hl hk _ _ hb =>
    cases hy
    rcases hq a m l hst hv i hl with hq | hq
    · obtain ⟨hs, _⟩ := question_same hc hst hq h
      have e := execute_sameData pwd s text hs
      rw [h] at e
      cases h2 : execute pwd ((setVar c a i').record text r) s text with
      | ub => rw [h2] at e; exact e.elim
      | done y =>
        obtain ⟨c2, s2, r2⟩ := y
        rw [h2] at e
        obtain ⟨e1, rfl, rfl⟩ := e
        exact ⟨c2, _, rfl, e1⟩
    · obtain ⟨_, c2, h1, h2⟩ := retry_variable hc hl hst h hr hq
      exact ⟨c2, _, h1, h2⟩
  | @connection m l x' z hst hs hz =>
    cases z with
    | ret t q =>
      cases hy
      have e := execute_toConnection (pwd := pwd) (c.record text r) t hst
      have : t.receive pwd m l = .ret t r := by
        generalize hw : Run.ret t r = w at hz
        cases hz with
        | close => cases hw; rfl
        | @auth a hl =>
          cases hw
          have hd := session_does pwd { x' with authed := true } b!"authenticateWithPassword:" [a]
          generalize hy : Session.receive pwd { x' with authed := true } b!"authenticateWithPassword:" [a] = y at hd ⊢
          generalize hm : b!"authenticateWithPassword:" = m at hd
          generalize ha : [a] = l at hd
          cases hd with
          | close => exact absurd hm (by decide)
          | auth => rfl
          | wrong hl' hne =>
            cases ha
            have h1 := stringLit_denotes _ _ hl
            have h2 := stringLit_denotes _ _ hl'
            rw [h1] at h2; cases h2
            exact absurd rfl hne
          | invalid hn =>
            cases ha
            obtain ⟨b, e, hb, _⟩ := hl
            exact absurd ⟨b, e, hb⟩ hn
          | wrongNumber hn => rw [← ha] at hn; exact absurd rfl hn
          | noMessage _ hn => exact absurd hm.symm hn
        | _ => cases hw
      rw [this] at e
      exact ⟨_, _, e, sameData_record _ _ _⟩
    | thr => cases hy
    | ub => cases hy
  | _ => cases hy

/-- C69: and what a variable answers to such a message the second time is what it answered the first time. -/
theorem C69_same_reply [StdSort] {i : Inst} {name : Str} {args : List Str} (hc : Reachable c) (hn : Holds c n i)
    (hst : Statement text n name args) (h : execute pwd c s text = .done (c1, s1, r)) (hq : Question name ∨ name ∈ repeatable i) :
    JustReplies pwd c1 s1 text r := by
  have same : SameData c c1 → s1 = s → JustReplies pwd c1 s1 text r := by
    rintro hs rfl
    have e := execute_sameData pwd s1 text hs
    rw [h] at e
    cases h2 : execute pwd c1 s1 text with
    | ub => rw [h2] at e; exact e.elim
    | done y =>
      obtain ⟨c2, s2, r2⟩ := y
      rw [h2] at e
      obtain ⟨e1, rfl, rfl⟩ := e
      exact ⟨c2, h2, e1⟩
  by_cases hr : r ∈ errorTexts
  · obtain ⟨hs, rfl⟩ := refused_same hc h hr
    exact same hs rfl
  rcases hq with hq | hq
  · obtain ⟨hs, rfl⟩ := question_same hc hst hq h
    exact same hs rfl
  · obtain ⟨rfl, h1⟩ := retry_variable hc hn hst h hr hq
    exact h1

/-- `text` is a message `name` to `n` that, sent twice, is accepted twice and changes `n` twice. -/
def changesTwice [StdSort] (c : Ctx) (n name text : Str) : Bool :=
  match parse text with
  | .ok p => p.actor == n && p.name == name && (match execute [] c none text with
    | .done (c1, _, r1) => match execute [] c1 none text with
      | .done (c2, _, r2) => c1.vars.lookup n != c2.vars.lookup n && !errorTexts.contains r1 && !errorTexts.contains r2
      | .ub => false
    | .ub => false)
  | _ => false

theorem changesTwice_iff [StdSort] {name : Str} (h : changesTwice c n name text = true) :
    ∃ args c1 c2 s1 s2 r1 r2, Statement text n name args ∧ execute [] c none text = .done (c1, s1, r1) ∧
      execute [] c1 none text = .done (c2, s2, r2) ∧ r1 ∉ errorTexts ∧ r2 ∉ errorTexts ∧ ¬ SameData c1 c2 := by
  unfold changesTwice at h
  split at h
  · rename_i p hp
    have hs := (parse_iff _ _).1 hp
    simp only [Bool.and_eq_true, beq_iff_eq] at h
    obtain ⟨⟨rfl, rfl⟩, h⟩ := h
    split at h
    · rename_i c1 s1 r1 h1
      split at h
      · rename_i c2 s2 r2 h2
        simp only [Bool.and_eq_true, bne_iff_ne, Bool.not_eq_true', List.contains_eq_mem, decide_eq_false_iff_not] at h
        exact ⟨_, c1, c2, s1, s2, r1, r2, hs, h1, h2, h.1.2, h.2, fun e => h.1.1 (by rw [e.1])⟩
      · cases h
    · cases h
  · cases h

/-- A context with one variable of each kind that has messages that cannot be repeated. -/
def lab : Ctx := { fresh with vars := [
  (b!"f", .float (.fin false (5 * 2 ^ 1076))), (b!"i", .integer 20), (b!"s", .string b!"abcdefgh"),
  (b!"v", .vector b!"Integer" [.integer 1, .integer 2, .integer 1, .integer 2, .integer 3])] }

theorem lab_reachable [StdSort] : Reachable lab :=
  after_reachable (pwd := []) (s := none) (ts := [b!"Integer create: i withValue: 20;", b!"Float create: f withValue: 20.0;",
    b!"String create: s withValue: \"abcdefgh\";", b!"Vector<Integer> create: v;", b!"v pushBack: 1;", b!"v pushBack: 2;",
    b!"v pushBack: 1;", b!"v pushBack: 2;", b!"v pushBack: 3;"]) fresh_reachable (by kernel_rfl)

/-- Requests that must not be repeated. -/
def labNumber (n : Str) : List (Str × Str) := [
  (b!"add:", n ++ b!" add: 1;"), (b!"subtract:", n ++ b!" subtract: 1;"), (b!"multiplyBy:", n ++ b!" multiplyBy: 2;"),
  (b!"divideBy:", n ++ b!" divideBy: 2;")]

def labString : List (Str × Str) := [
  (b!"pushBack:", b!"s pushBack: 'x';"), (b!"pushFront:", b!"s pushFront: 'x';"), (b!"popBack", b!"s popBack;"),
  (b!"popFront", b!"s popFront;"), (b!"popAtIndex:", b!"s popAtIndex: 1;"), (b!"concatenate:", b!"s concatenate: \"x\";"),
  (b!"insert:beforeIndex:", b!"s insert: \"x\" beforeIndex: 1;"), (b!"eraseFromIndex:toIndex:", b!"s eraseFromIndex: 1 toIndex: 2;")]

def labVector : List (Str × Str) := [
  (b!"pushBack:", b!"v pushBack: 1;"), (b!"pushFront:", b!"v pushFront: 1;"), (b!"popBack", b!"v popBack;"),
  (b!"popFront", b!"v popFront;"), (b!"popAtIndex:", b!"v popAtIndex: 1;"),
  (b!"insert:beforeIndex:", b!"v insert: 7 beforeIndex: 1;"), (b!"eraseFromIndex:toIndex:", b!"v eraseFromIndex: 1 toIndex: 2;"),
  (b!"removeFirst:", b!"v removeFirst: 1;"), (b!"removeFirst:fromIndex:", b!"v removeFirst: 1 fromIndex: 0;"),
  (b!"replaceFirst:with:", b!"v replaceFirst: 1 with: 5;"),
  (b!"replaceFirst:fromIndex:with:", b!"v replaceFirst: 1 fromIndex: 0 with: 5;"), (b!"reverse", b!"v reverse;")]

theorem lab_integer [StdSort] : (labNumber b!"i").all (fun x => changesTwice lab b!"i" x.1 x.2) = true := by kernel_rfl
theorem lab_float [StdSort] : (labNumber b!"f").all (fun x => changesTwice lab b!"f" x.1 x.2) = true := by kernel_rfl
theorem lab_string [StdSort] : labString.all (fun x => changesTwice lab b!"s" x.1 x.2) = true := by kernel_rfl
theorem lab_vector [StdSort] : labVector.all (fun x => changesTwice lab b!"v" x.1 x.2) = true := by kernel_rfl

/-- C69: no other message of any type may be repeated in general (the order in which `sort` leaves floats that count as
equal is not specified): for each there is a value of the same kind that it changes when sent for the first time, and again when
sent for the second time. -/
theorem C69_no_other_message [StdSort] {i : Inst} {name : Str} (h : name ∈ (signature i).map (·.1)) (hq : ¬ Question name)
    (hr : name ∉ repeatable i) (hs : name ≠ b!"sort") :
    ∃ c n i' text args c1 c2 s1 s2 r1 r2, Reachable c ∧ Holds c n i' ∧ sameKind i i' ∧ Statement text n name args ∧
      execute [] c none text = .done (c1, s1, r1) ∧ execute [] c1 none text = .done (c2, s2, r2) ∧
      r1 ∉ errorTexts ∧ r2 ∉ errorTexts ∧ ¬ SameData c1 c2 := by
  have key : ∀ (n : Str) (l : List (Str × Str)) (i' : Inst), l.all (fun x => changesTwice lab n x.1 x.2) = true → Holds lab n i' →
      sameKind i i' → name ∈ l.map (·.1) → ∃ c n i' text args c1 c2 s1 s2 r1 r2, Reachable c ∧ Holds c n i' ∧ sameKind i i' ∧ Statement text n name args ∧
      execute [] c none text = .done (c1, s1, r1) ∧ execute [] c1 none text = .done (c2, s2, r2) ∧
      r1 ∉ errorTexts ∧ r2 ∉ errorTexts ∧ ¬ SameData c1 c2 := by
    intro n l i' h1 h2 h3 h4
    obtain ⟨⟨x, text⟩, hx, rfl⟩ := List.mem_map.1 h4
    obtain ⟨args, c1, c2, s1, s2, r1, r2, h5⟩ := changesTwice_iff (List.all_eq_true.1 h1 _ hx)
    exact ⟨lab, n, i', text, args, c1, c2, s1, s2, r1, r2, lab_reachable, h2, h3, h5⟩
  have pick : ∀ (sig no l : List Str), (sig.filter fun x => !decide (Question x) && !no.contains x && !(x == b!"sort")).all (l.contains ·) = true →
      name ∈ sig → name ∉ no → name ∈ l := by
    intro sig no l h1 h2 h3
    have := List.all_eq_true.1 h1 name (List.mem_filter.2 ⟨h2, by simp [hq, h3, hs]⟩)
    simpa using this
  cases i with
  | boolean v => exact absurd (pick _ _ [] (by kernel_rfl) h hr) (by simp)
  | character v => exact absurd (pick _ _ [] (by kernel_rfl) h hr) (by simp)
  | integer v => exact key b!"i" _ (.integer 20) lab_integer (by unfold Holds; kernel_rfl) trivial (pick _ _ _ (by kernel_rfl) h hr)
  | float v => exact key b!"f" _ (.float (.fin false (5 * 2 ^ 1076))) lab_float (by unfold Holds; kernel_rfl) trivial (pick _ _ _ (by kernel_rfl) h hr)
  | string v => exact key b!"s" _ (.string b!"abcdefgh") lab_string (by unfold Holds; kernel_rfl) trivial (pick _ _ _ (by kernel_rfl) h hr)
  | vector t l =>
    refine key b!"v" _ (.vector b!"Integer" [.integer 1, .integer 2, .integer 1, .integer 2, .integer 3]) lab_vector (by unfold Holds; kernel_rfl) trivial (pick ((signature (.vector t l)).map (·.1)) [b!"clear", b!"removeAll:", b!"replaceAll:with:", b!"eraseFromIndex:"] _ ?_ h ?_)
    · kernel_rfl
    · intro h1; exact hr (by simp only [repeatable]; exact List.mem_append_left _ h1)
  | set t l => exact absurd (pick _ _ [] (by kernel_rfl) h hr) (by simp)
  | dictionary t u l => exact absurd (pick _ _ [] (by kernel_rfl) h hr) (by simp)

/-- The hypotheses can be met: `add:` of an integer. -/
example : b!"add:" ∈ (signature (.integer 0)).map (·.1) ∧ ¬ Question b!"add:" ∧ b!"add:" ∉ repeatable (.integer 0) ∧ b!"add:" ≠ b!"sort" := by
  decide

/-- A request that may be repeated. -/
example [StdSort] : Reachable demo ∧ Retriable demo b!"t add: \"z\";" ∧
    ∃ c1, execute [] demo none b!"t add: \"z\";" = .done (c1, none, b!"null") ∧ ¬ SameData demo c1 := by
  refine ⟨demo_reachable, ?_, { demo with vars := updateVar b!"t" (.set b!"String" [.string b!"x", .string b!"y", .string b!"z"]) demo.vars },
    by kernel_rfl, fun h => absurd h.1 (by decide +kernel)⟩
  intro a name args hst _ i hi
  obtain ⟨rfl, rfl, rfl⟩ := statement_unique (reads (a := b!"t") (n := b!"add:") (l := [b!"\"z\""]) (by decide)) hst
  cases hi
  exact .inr (by decide)

end Knuckle.Props
