/-
What a request can change.
-/
import Verif.Proofs.Context
import Verif.Spec.Questions

namespace Knuckle

open Spec

/-- A request that ends with an exception has changed nothing. -/
theorem does_thr {pwd : Str} {c x : Ctx} {s s' : Option Session} {text : Str} {e : Exc}
    (h : Does pwd c s text (.thr (x, s') e)) : x = c ∧ s' = s := by
  generalize hy : Run.thr (x, s') e = y at h
  cases h with
  | context _ h => cases h <;> cases hy <;> exact ⟨rfl, rfl⟩
  | connection _ hs h => subst hs; cases h <;> cases hy <;> exact ⟨rfl, rfl⟩
  | _ => cases hy <;> exact ⟨rfl, rfl⟩

/-- A request that is not for the connection leaves the session alone. -/
theorem does_session {pwd : Str} {c x : Ctx} {s s' : Option Session} {text : Str} {r : Str}
    (h : Does pwd c s text (.ret (x, s') r)) :
    s' = s ∨ ∃ n l y y', Statement text b!"Connection" n l ∧ s = some y ∧ s' = some y' ∧ x = c ∧ SessDoes pwd y n l (.ret y' r) := by
  generalize hy : Run.ret (x, s') r = y at h
  cases h with
  | context _ h => cases h <;> cases hy <;> exact .inl rfl
  | @connection n l z w hst hs h =>
    right
    cases w with
    | ret z' o => cases hy; exact ⟨n, l, z, z', hst, hs, rfl, rfl, h⟩
    | thr => cases hy
    | ub => cases hy
  | _ => cases hy <;> exact .inl rfl

theorem inv_variable {c : Ctx} (hc : Inv c) {n : Str} {i : Inst} (h : c.vars.lookup n = some i) : Variable n :=
  (hc.vars _ (lookup_some_mem h)).1

/-- The ways the value of a variable can change. -/
theorem does_lookup {pwd : Str} {c x : Ctx} (hc : Inv c) {s s' : Option Session} {text : Str} {r : Str}
    (h : Does pwd c s text (.ret (x, s') r)) (n : Str) :
    x.vars.lookup n = c.vars.lookup n ∨ ((∃ i, c.vars.lookup n = some i) ∧ Concerns text n) ∨
      (c.vars.lookup n = none ∧ ∃ i, CreationOf text n i ∧ x.vars.lookup n = some i) := by
  generalize hy : Run.ret (x, s') r = y at h
  cases h with
  | @created a m l v i hst ht hcr hl =>
    cases hy
    rw [mapInsert_lookup _ _ _ hc.asc]
    by_cases e : n = v
    · subst e; exact .inr (.inr ⟨hl, i, ⟨a, m, l, hst, hcr⟩, by simp⟩)
    · rw [if_neg e]; exact .inl rfl
  | @varGives a m l i ks i' r hst hv hl =>
    cases hy
    show (updateVar a i' c.vars).lookup n = _ ∨ _
    rw [updateVar_lookup a i' c.vars (lookup_isSome_iff.1 ⟨i, hl⟩)]
    by_cases e : n = a
    · subst e; exact .inr (.inl ⟨⟨i, hl⟩, .message hst⟩)
    · rw [if_neg e]; exact .inl rfl
  | @context m l w hst h =>
    cases h with
    | @delete v h1 h2 =>
      cases hy
      have hf := filter_lookup (fun k => !(k == v)) c.vars n
      by_cases e : n = v
      · subst e; exact .inr (.inl ⟨lookup_isSome_iff.2 h2, .delete hst⟩)
      · left; simp only [beq_false_of_ne e, Bool.not_false, if_true] at hf; exact hf
    | @deleteOf ns h1 =>
      cases hy
      have hf := filter_lookup (fun k => !(startsWith k (ns ++ b!"::"))) c.vars n
      cases hs : startsWith n (ns ++ b!"::") with
      | false => left; simp only [hs, Bool.not_false, if_true] at hf; exact hf
      | true =>
        cases hl : c.vars.lookup n with
        | none => left; rw [hl] at hf; simpa using hf
        | some i =>
          exact .inr (.inl ⟨⟨i, rfl⟩, .deleteNamespace hst ((startsWith_ns (inv_variable hc hl) h1).1 hs)⟩)
    | _ => cases hy <;> exact .inl rfl
  | connection _ hs h => cases h <;> cases hy <;> exact .inl rfl
  | _ => cases hy <;> exact .inl rfl

/-- The ways the settings can change. -/
theorem does_cfg {pwd : Str} {c x : Ctx} {s s' : Option Session} {text : Str} {r : Str}
    (h : Does pwd c s text (.ret (x, s') r)) : x.cfg = c.cfg ∨ SetsSetting text := by
  generalize hy : Run.ret (x, s') r = y at h
  cases h with
  | @context m l w hst h =>
    cases h with
    | setPrecision => exact .inr (.precision hst)
    | setTolerance => exact .inr (.tolerance hst)
    | _ => cases hy <;> exact .inl rfl
  | connection _ hs h => cases h <;> cases hy <;> exact .inl rfl
  | _ => cases hy <;> exact .inl rfl

/-- The variables and the settings. -/
theorem does_sameData_of_vars {c x : Ctx} (hx : Inv x) (hc : Inv c) (h1 : ∀ n, x.vars.lookup n = c.vars.lookup n)
    (h2 : x.cfg = c.cfg) : SameData c x := ⟨vars_ext _ _ hx.asc hc.asc h1, h2⟩

open Classical in
theorem behaves_question {cfg : Cfg} {i i' : Inst} {name r : Str} {args : List Str} (hq : Question name)
    (h : Behaves cfg i name args (.gives i' r)) : i' = i := by
  generalize hx : Result.gives i' r = x at h
  have no : ∀ n, name = n → ¬ Question n → i' = i := fun n e h => absurd (e ▸ hq) h
  cases h with
  | boolean h =>
    obtain ⟨w, e, rfl⟩ := map_gives hx.symm
    cases h <;> first | exact no _ rfl (by decide) | (cases e; rfl)
  | character h =>
    obtain ⟨w, e, rfl⟩ := map_gives hx.symm
    cases h <;> first | exact no _ rfl (by decide) | (cases e; rfl)
  | @integer v _ _ m h =>
    obtain ⟨w, e, rfl⟩ := map_gives hx.symm
    cases h <;> first | exact no _ rfl (by decide) | (cases e; rfl) | (rename_i x _; cases x <;> simp only [intMeaning, Result.gives.injEq] at e <;> rw [e.1])
  | float h =>
    obtain ⟨w, e, rfl⟩ := map_gives hx.symm
    cases h <;> first | exact no _ rfl (by decide) | (simp only [fltMeaning, Result.gives.injEq] at e; rw [e.1])
  | string h =>
    obtain ⟨w, e, rfl⟩ := map_gives hx.symm
    cases h <;> first | exact no _ rfl (by decide) | (simp only [strMeaning] at e; (try split at e) <;> cases e <;> rfl)
  | vector h =>
    obtain ⟨w, e, rfl⟩ := map_gives hx.symm
    cases h <;> first | exact no _ rfl (by decide) | (simp only [vecMeaning] at e; (try split at e) <;> cases e <;> rfl)
  | sort => exact no _ rfl (by decide)
  | sortUndefined => exact no _ rfl (by decide)
  | set h =>
    obtain ⟨w, e, rfl⟩ := map_gives hx.symm
    cases h <;> first | exact no _ rfl (by decide) | (simp only [setMeaning] at e; (try split at e) <;> cases e <;> rfl)
  | dictionary h =>
    obtain ⟨w, e, rfl⟩ := map_gives hx.symm
    cases h <;> first | exact no _ rfl (by decide) | (simp only [dictMeaning] at e; (try split at e) <;> (try split at e) <;> cases e <;> rfl)

theorem statement_unique {text a a' n n' : Str} {l l' : List Str} (h : Statement text a n l) (h' : Statement text a' n' l') :
    a = a' ∧ n = n' ∧ l = l' := by
  have h1 := parse_complete _ _ _ _ h
  have h2 := parse_complete _ _ _ _ h'
  rw [h1] at h2; cases h2; exact ⟨rfl, rfl, rfl⟩

theorem does_question {pwd : Str} {c x : Ctx} {s s' : Option Session} {text : Str} {r : Str} {a n : Str} {l : List Str}
    (hs : Statement text a n l) (hq : Question n) (h : Does pwd c s text (.ret (x, s') r)) : x = c ∧ s' = s := by
  generalize hy : Run.ret (x, s') r = y at h
  have no : ∀ {a' n' l'}, Statement text a' n' l' → ¬ Question n' → x = c ∧ s' = s := by
    intro a' n' l' h' hn
    obtain ⟨_, rfl, _⟩ := statement_unique hs h'
    exact absurd hq hn
  cases h with
  | @created a' n' l' v i hst ht hcr hl =>
    refine no hst ?_
    cases hcr with
    | value _ h _ _ => simp only [List.mem_cons, List.not_mem_nil, or_false] at h; rcases h with rfl | rfl <;> decide
    | string h _ => simp only [List.mem_cons, List.not_mem_nil, or_false] at h; rcases h with rfl | rfl <;> decide
    | vector _ _ _ h _ => simp only [List.mem_cons, List.not_mem_nil, or_false] at h; rcases h with rfl | rfl <;> decide
    | set _ _ _ h _ => simp only [List.mem_cons, List.not_mem_nil, or_false] at h; rcases h with rfl | rfl <;> decide
    | dictionary _ _ _ _ _ _ h _ => simp only [List.mem_cons, List.not_mem_nil, or_false] at h; rcases h with rfl | rfl <;> decide
  | @varGives a' m l' i ks i' r hst hv hl _ _ _ hb =>
    cases hy
    obtain ⟨_, rfl, _⟩ := statement_unique hs hst
    rw [behaves_question hq hb]
    exact ⟨setVar_same c a' i hl, rfl⟩
  | @context m l w hst h =>
    cases h <;> first | exact no hst (by decide) | (cases hy; exact ⟨rfl, rfl⟩) | cases hy
  | connection hst hs h => cases h <;> first | exact no hst (by decide) | cases hy
  | _ => cases hy <;> exact ⟨rfl, rfl⟩

end Knuckle
