/-
Bounds for the number of steps of the parser.
-/
import Verif.Model.Cost
import Verif.Proofs.Parser
import Mathlib.Tactic.Ring
import Mathlib.Tactic.Linarith

namespace Knuckle

open Spec

/-! ### The counting versions compute the same results -/

theorem any_range_shift (n : Nat) (f : Nat → Bool) : (List.range (n + 1)).any f = (f 0 || (List.range n).any fun i => f (i + 1)) := by
  rw [List.range_succ_eq_map, List.any_cons, List.any_map]; rfl

theorem keywordLoopC_fst (rec : Str → Counted Bool) (f : Str → Bool) (h : ∀ s, (rec s).1 = f s) (s : Str) : ∀ pre,
    (keywordLoopC rec pre s).1 = (List.range s.length).any fun i =>
      isSpace (s.getD i 0) && isKeywordMessagePart (pre ++ s.take i) && f (ltrim (s.drop (i + 1))) := by
  induction s with
  | nil => intro pre; rfl
  | cons c cs ih =>
    intro pre
    rw [List.length_cons, any_range_shift]
    have e : ((List.range cs.length).any fun i => isSpace ((c :: cs).getD (i + 1) 0) &&
        isKeywordMessagePart (pre ++ (c :: cs).take (i + 1)) && f (ltrim ((c :: cs).drop (i + 1 + 1)))) =
        (keywordLoopC rec (pre ++ [c]) cs).1 := by
      rw [ih (pre ++ [c])]; simp
    rw [e]
    simp only [keywordLoopC, List.getD_cons_zero, List.take_zero, List.append_nil, List.drop_succ_cons, List.drop_zero, Nat.zero_add]
    by_cases h1 : isSpace c
    · by_cases h2 : isKeywordMessagePart pre
      · simp only [h1, h2, if_true, Bool.true_and]
        rw [← h]
        by_cases h3 : (rec (ltrim cs)).1
        · simp [h3]
        · simp [h3]
      · simp [h1, h2]
    · simp [h1]

theorem isKeywordMessageC_fst (fuel : Nat) : ∀ s, (isKeywordMessageC fuel s).1 = isKeywordMessageF fuel s := by
  induction fuel with
  | zero => intro s; rfl
  | succ fuel ih =>
    intro s
    simp only [isKeywordMessageC, isKeywordMessageF]
    by_cases h : isKeywordMessagePart s
    · simp [h]
    · rw [if_neg h, if_neg h, keywordLoopC_fst _ _ ih]; simp

theorem statementLoopC_fst (s : Str) : ∀ pre, (statementLoopC pre s).1 = statementLoop pre s := by
  induction s with
  | nil => intro pre; rfl
  | cons c cs ih =>
    intro pre
    simp only [statementLoopC, statementLoop]
    by_cases h1 : isSpace c
    · by_cases h2 : isActor pre
      · by_cases h3 : isUnaryMessage (ltrim cs)
        · simp [h1, h2, h3]
        · simp [h1, h2, h3, isKeywordMessageC_fst, isKeywordMessage]
      · simp [h1, h2, ih]
    · simp [h1, ih]

theorem isStatementC_fst (s : Str) : (isStatementC s).1 = isStatement s := by
  simp only [isStatementC, isStatement]
  split
  · rfl
  · exact statementLoopC_fst _ _

theorem actorLoopC_fst (s : Str) : ∀ pre, (actorLoopC pre s).1 = actorLoop pre s := by
  induction s with
  | nil => intro pre; rfl
  | cons c cs ih =>
    intro pre
    simp only [actorLoopC, actorLoop]
    by_cases h1 : isSpace c <;> by_cases h2 : isActor pre <;> simp [h1, h2, ih]

theorem tokenLoopC_fst (s : Str) : ∀ pre, (tokenLoopC pre s).1 = tokenLoop pre s := by
  induction s with
  | nil => intro pre; rfl
  | cons c cs ih =>
    intro pre
    simp only [tokenLoopC, tokenLoop]
    split
    · exact ih _
    · rfl

theorem argLoopC_fst (s : Str) : ∀ pre, (argLoopC pre s).1 = argLoop pre s := by
  induction s with
  | nil => intro pre; rfl
  | cons c cs ih =>
    intro pre
    simp only [argLoopC, argLoop]
    by_cases h1 : isSpace c <;> by_cases h2 : isKeywordMessageArgument pre <;> simp [h1, h2, ih]

theorem partsLoopC_fst (fuel : Nat) : ∀ s name args, (partsLoopC fuel s name args).1 = partsLoop fuel s name args := by
  induction fuel with
  | zero => intro s name args; cases s <;> rfl
  | succ fuel ih =>
    intro s name args
    cases s with
    | nil => rfl
    | cons c cs =>
      simp only [partsLoopC, partsLoop]
      rw [tokenLoopC_fst]
      cases tokenLoop [] (c :: cs) with
      | ok p => obtain ⟨tok, rest⟩ := p; simp only [Res.bind_ok, argLoopC_fst]; exact ih _ _ _
      | err e => rfl
      | ub => rfl

theorem parseC_fst (s : Str) : (parseC s).1 = parse s := by
  simp only [parseC, parse]
  rw [isStatementC_fst]
  by_cases h : isStatement s
  · simp only [h, Bool.not_true, Bool.false_eq_true, if_false]
    rw [actorLoopC_fst]
    cases actorLoop [] (rtrim ((trim s).take ((trim s).length - 1))) with
    | ok p =>
      obtain ⟨actor, rest⟩ := p
      simp only [Res.bind_ok]
      by_cases h1 : isUnaryMessage (ltrim rest)
      · simp [h1]
      · simp only [h1, if_false, Bool.false_eq_true]
        rw [partsLoopC_fst]
        cases partsLoop (ltrim rest).length (ltrim rest) [] [] with
        | ok p => rfl
        | err e => rfl
        | ub => rfl
    | err e => rfl
    | ub => rfl
  · simp [h]

/-! ### Upper bound -/

theorem ltrim_length (s : Str) : (ltrim s).length ≤ s.length := by
  obtain ⟨w, _, h⟩ := ltrim_spec s
  have := congrArg List.length h
  rw [List.length_append] at this; omega

theorem rtrim_length (s : Str) : (rtrim s).length ≤ s.length := by
  obtain ⟨w, _, h⟩ := rtrim_spec s
  have := congrArg List.length h
  rw [List.length_append] at this; omega

theorem trim_length (s : Str) : (trim s).length ≤ s.length := le_trans (rtrim_length _) (ltrim_length _)

/-- After a part, no longer text that continues with a space is a part. -/
theorem part_split (p : Str) (c : Byte) (q : Str) (hp : isKeywordMessagePart p = true) (hc : Ws c) :
    isKeywordMessagePart (p ++ c :: q) = false := by
  rw [Bool.eq_false_iff]
  intro h
  obtain ⟨tok, w, arg, rfl, ht, hw, ha⟩ := (isKeywordMessagePart_iff _).1 hp
  obtain ⟨tok', w', arg', e, ht', hw', ha'⟩ := (isKeywordMessagePart_iff _).1 h
  have e1 : tokenLoop [] (tok ++ (w ++ arg) ++ c :: q) = .ok (tok, (w ++ arg) ++ c :: q) := by
    rw [List.append_assoc]; exact tokenLoop_token _ _ ht
  rw [e, tokenLoop_token _ _ ht'] at e1
  injection e1 with e1; injection e1 with e1 e2
  have e3 := congrArg ltrim e2
  have hne := argument_ne_nil _ ha
  have hl : NoLead (arg ++ c :: q) := (noLead_append _ _ hne).2 (argument_noLead _ ha)
  rw [ltrim_spaces_append _ _ hw', ltrim_of_noLead _ (argument_noLead _ ha'), List.append_assoc, ltrim_spaces_append _ _ hw,
    ltrim_of_noLead _ hl] at e3
  rw [e3] at ha'
  exact argument_split _ _ _ ha' hc ha

/-- After a part has been found, the loop does not recurse any more. -/
theorem keywordLoopC_after (rec : Str → Counted Bool) (p : Str) (d : Byte) (hp : isKeywordMessagePart p = true) (hd : Ws d) (s : Str) :
    ∀ q, (keywordLoopC rec (p ++ d :: q) s).2 ≤ s.length * ((p ++ d :: q).length + s.length + 2) := by
  induction s with
  | nil => intro q; simp [keywordLoopC]
  | cons c cs ih =>
    intro q
    have hq : p ++ d :: q ++ [c] = p ++ d :: (q ++ [c]) := by simp
    have h1 := ih (q ++ [c])
    rw [← hq] at h1
    have h2 : (p ++ d :: q ++ [c]).length = (p ++ d :: q).length + 1 := by rw [List.length_append]; rfl
    rw [h2] at h1
    have hb : (keywordLoopC rec (p ++ d :: q) (c :: cs)).2 ≤ 1 + call (p ++ d :: q) + (keywordLoopC rec (p ++ d :: q ++ [c]) cs).2 := by
      simp only [keywordLoopC, part_split p d q hp hd, Bool.false_eq_true, if_false]
      split
      · exact le_refl _
      · omega
    refine le_trans hb ?_
    unfold call
    rw [List.length_cons]
    generalize (p ++ d :: q).length = a at *
    generalize cs.length = b at *
    calc 1 + (a + 1) + (keywordLoopC rec (p ++ d :: q ++ [c]) cs).2 ≤ 1 + (a + 1) + b * (a + 1 + b + 2) := by omega
      _ ≤ (b + 1) * (a + (b + 1) + 2) := by nlinarith

/-- The loop recurses at most once. -/
theorem keywordLoopC_bound (rec : Str → Counted Bool) (T : Nat) (s : Str) :
    ∀ pre, (∀ u, u.length < s.length → (rec u).2 ≤ T) →
      (keywordLoopC rec pre s).2 ≤ s.length * (pre.length + s.length + 2) + (s.length + T) := by
  induction s with
  | nil => intro pre _; simp [keywordLoopC]
  | cons c cs ih =>
    intro pre hT
    have h1 := ih (pre ++ [c]) (fun u hu => hT u (by rw [List.length_cons]; omega))
    have h2 : (pre ++ [c]).length = pre.length + 1 := by rw [List.length_append]; rfl
    rw [h2] at h1
    have hmul : cs.length * (pre.length + 1 + cs.length + 2) + (pre.length + 2) ≤ (cs.length + 1) * (pre.length + (cs.length + 1) + 2) := by nlinarith
    rw [List.length_cons]
    simp only [keywordLoopC]
    by_cases hs : isSpace c
    · rw [if_pos hs]
      by_cases hp : isKeywordMessagePart pre
      · rw [if_pos hp]
        have h3 := keywordLoopC_after rec pre c hp ((isSpace_iff c).1 hs) cs []
        have h4 := hT (ltrim cs) (by have := ltrim_length cs; rw [List.length_cons]; omega)
        rw [h2] at h3
        unfold call
        split
        · dsimp only; omega
        · dsimp only; omega
      · rw [if_neg hp]
        dsimp only
        unfold call; omega
    · rw [if_neg hs]
      dsimp only
      omega

theorem isKeywordMessageC_bound (fuel : Nat) : ∀ s, (isKeywordMessageC fuel s).2 ≤ (s.length + 1) ^ 3 := by
  induction fuel with
  | zero => intro s; exact Nat.zero_le _
  | succ fuel ih =>
    intro s
    simp only [isKeywordMessageC]
    have h0 : s.length + 1 ≤ (s.length + 1) ^ 3 := Nat.le_self_pow (by norm_num) _
    split
    · exact h0
    · dsimp only
      cases s with
      | nil => simp [keywordLoopC, call]
      | cons c cs =>
        have h := keywordLoopC_bound (isKeywordMessageC fuel) ((cs.length + 1) ^ 3) (c :: cs) [] (fun u hu => by
          refine le_trans (ih u) (Nat.pow_le_pow_left ?_ 3)
          rw [List.length_cons] at hu; omega)
        unfold call
        rw [List.length_cons] at h ⊢
        rw [List.length_nil] at h
        generalize cs.length = n at *
        nlinarith [h]

theorem statementLoopC_bound (s : Str) : ∀ pre, (statementLoopC pre s).2 ≤ s.length * (pre.length + s.length + 2) + (s.length + 1) ^ 3 + 2 * s.length := by
  induction s with
  | nil => intro pre; simp [statementLoopC]
  | cons c cs ih =>
    intro pre
    have h1 := ih (pre ++ [c])
    have h2 : (pre ++ [c]).length = pre.length + 1 := by rw [List.length_append]; rfl
    rw [h2] at h1
    have hmul : cs.length * (pre.length + 1 + cs.length + 2) + (pre.length + 2) ≤ (cs.length + 1) * (pre.length + (cs.length + 1) + 2) := by nlinarith
    have hpow : (cs.length + 1) ^ 3 ≤ (cs.length + 1 + 1) ^ 3 := Nat.pow_le_pow_left (by omega) 3
    rw [List.length_cons]
    simp only [statementLoopC]
    by_cases hs : isSpace c
    · rw [if_pos hs]
      by_cases hp : isActor pre
      · rw [if_pos hp]
        have h3 := isKeywordMessageC_bound ((ltrim cs).length + 1) (ltrim cs)
        have h4 := ltrim_length cs
        have h5 : ((ltrim cs).length + 1) ^ 3 ≤ (cs.length + 1) ^ 3 := Nat.pow_le_pow_left (by omega) 3
        unfold call
        have : pre.length + 2 ≤ (cs.length + 1) * (pre.length + (cs.length + 1) + 2) := by nlinarith
        split
        · dsimp only; omega
        · dsimp only; omega
      · rw [if_neg hp]; dsimp only; unfold call; omega
    · rw [if_neg hs]; dsimp only; omega

theorem isStatementC_bound (s : Str) : (isStatementC s).2 ≤ 2 * (s.length + 1) ^ 3 + 3 * (s.length + 1) := by
  simp only [isStatementC]
  split
  · unfold call; dsimp only; omega
  · dsimp only
    have h := statementLoopC_bound (rtrim ((trim s).take ((trim s).length - 1))) []
    have h1 : (rtrim ((trim s).take ((trim s).length - 1))).length ≤ s.length := by
      refine le_trans (rtrim_length _) (le_trans (List.length_take_le _ _) ?_)
      have := trim_length s; omega
    have h2 := trim_length s
    have h3 : ((rtrim ((trim s).take ((trim s).length - 1))).length + 1) ^ 3 ≤ (s.length + 1) ^ 3 := Nat.pow_le_pow_left (by omega) 3
    have h4 : (rtrim ((trim s).take ((trim s).length - 1))).length * (([] : Str).length + (rtrim ((trim s).take ((trim s).length - 1))).length + 2)
        ≤ s.length * (s.length + 2) := Nat.mul_le_mul h1 (by rw [List.length_nil]; omega)
    have h5 : s.length * (s.length + 2) + s.length ≤ (s.length + 1) ^ 3 := by
      generalize s.length = n
      nlinarith [Nat.zero_le (n ^ 3), Nat.zero_le (n ^ 2), sq_nonneg n]
    unfold call
    omega

theorem actorLoopC_bound (s : Str) : ∀ pre, (actorLoopC pre s).2 ≤ s.length * (pre.length + s.length + 2) := by
  induction s with
  | nil => intro pre; simp [actorLoopC]
  | cons c cs ih =>
    intro pre
    have h1 := ih (pre ++ [c])
    have h2 : (pre ++ [c]).length = pre.length + 1 := by rw [List.length_append]; rfl
    rw [h2] at h1
    have hmul : cs.length * (pre.length + 1 + cs.length + 2) + (pre.length + 2) ≤ (cs.length + 1) * (pre.length + (cs.length + 1) + 2) := by nlinarith
    rw [List.length_cons]
    simp only [actorLoopC]
    unfold call
    split
    · split
      · dsimp only; nlinarith
      · dsimp only; omega
    · dsimp only; omega

/-- What a loop leaves is a part of what it got. -/
theorem actorLoop_rest (s : Str) : ∀ pre a r, actorLoop pre s = .ok (a, r) → r.length ≤ s.length := by
  induction s with
  | nil => intro pre a r h; cases h
  | cons c cs ih =>
    intro pre a r h
    simp only [actorLoop] at h
    rw [List.length_cons]
    split at h
    · have := ih _ _ _ h; omega
    · cases h; omega

theorem tokenLoopC_bound (s : Str) : ∀ pre, (∀ tok rest, tokenLoop pre s = .ok (tok, rest) →
    (tokenLoopC pre s).2 + rest.length ≤ s.length ∧ tok.length + rest.length = pre.length + s.length ∧ rest.length < s.length) ∧
    (tokenLoopC pre s).2 ≤ s.length := by
  induction s with
  | nil => intro pre; exact ⟨fun tok rest h => (by cases h), by simp [tokenLoopC]⟩
  | cons c cs ih =>
    intro pre
    obtain ⟨h1, h2⟩ := ih (pre ++ [c])
    simp only [tokenLoopC, tokenLoop, List.length_cons]
    by_cases hc : (c != c!":" && c != c!"?") = true
    · rw [if_pos hc, if_pos hc]
      refine ⟨fun tok rest h => ?_, by dsimp only; omega⟩
      obtain ⟨g1, g2, g3⟩ := h1 tok rest h
      rw [List.length_append, List.length_singleton] at g2
      exact ⟨by dsimp only; omega, by omega, by omega⟩
    · rw [if_neg hc, if_neg hc]
      refine ⟨fun tok rest h => ?_, by dsimp only; omega⟩
      injection h with h; injection h with h h'
      subst h; subst h'
      exact ⟨by dsimp only; omega, by rw [List.length_append, List.length_singleton]; omega, by omega⟩

theorem argLoopC_bound (n : Nat) (s : Str) : ∀ pre, pre.length + s.length ≤ n →
    (argLoopC pre s).2 ≤ (s.length - (argLoopC pre s).1.2.length) * (n + 2) + (n + 2) ∧
    (argLoopC pre s).1.1.length + (argLoopC pre s).1.2.length = pre.length + s.length ∧ (argLoopC pre s).1.2.length ≤ s.length := by
  induction s with
  | nil => intro pre hn; simp [argLoopC]
  | cons c cs ih =>
    intro pre hn
    rw [List.length_cons] at hn
    obtain ⟨h1, h2, h3⟩ := ih (pre ++ [c]) (by rw [List.length_append, List.length_singleton]; omega)
    rw [List.length_append, List.length_singleton] at h2
    have hm : (cs.length + 1 - (argLoopC (pre ++ [c]) cs).1.2.length) * (n + 2) =
        (cs.length - (argLoopC (pre ++ [c]) cs).1.2.length) * (n + 2) + (n + 2) := by
      rw [Nat.succ_sub h3, Nat.succ_mul]
    simp only [argLoopC]
    by_cases hs : isSpace c
    · rw [if_pos hs]
      by_cases ha : isKeywordMessageArgument pre
      · rw [if_pos ha]
        refine ⟨?_, rfl, le_refl _⟩
        dsimp only; unfold call; omega
      · rw [if_neg ha]
        dsimp only
        rw [List.length_cons, hm]
        unfold call
        exact ⟨by omega, by omega, by omega⟩
    · rw [if_neg hs]
      dsimp only
      rw [List.length_cons, hm]
      exact ⟨by omega, by omega, by omega⟩

theorem partsLoopC_bound (n fuel : Nat) : ∀ s name args, name.length + s.length ≤ n →
    (partsLoopC fuel s name args).2 ≤ s.length * (7 * (n + 2)) := by
  induction fuel with
  | zero => intro s name args _; cases s <;> simp [partsLoopC]
  | succ fuel ih =>
    intro s name args hn
    cases s with
    | nil => simp [partsLoopC]
    | cons c cs =>
      simp only [partsLoopC]
      obtain ⟨h1, h2⟩ := tokenLoopC_bound (c :: cs) []
      rw [tokenLoopC_fst]
      have hpos : n + 2 ≤ (c :: cs).length * (7 * (n + 2)) := by rw [List.length_cons]; nlinarith
      generalize hS : c :: cs = S at *
      have hS1 : 1 ≤ S.length := by rw [← hS]; simp
      cases ht : tokenLoop [] S with
      | ok p =>
        obtain ⟨tok, rest⟩ := p
        obtain ⟨g1, g2, g3⟩ := h1 tok rest ht
        rw [List.length_nil, Nat.zero_add] at g2
        dsimp only
        have hl := ltrim_length rest
        obtain ⟨a1, a2, a3⟩ := argLoopC_bound n (ltrim rest) [] (by rw [List.length_nil]; omega)
        rw [List.length_nil, Nat.zero_add] at a2
        generalize argLoopC [] (ltrim rest) = q at *
        have hl' := ltrim_length q.1.2
        have h3 := ih (ltrim q.1.2) (name ++ tok) (args ++ [q.1.1]) (by rw [List.length_append]; omega)
        have h4 : (ltrim q.1.2).length * (7 * (n + 2)) ≤ q.1.2.length * (7 * (n + 2)) := Nat.mul_le_mul_right _ hl'
        -- consumed bytes
        obtain ⟨k, hk⟩ : ∃ k, S.length = q.1.2.length + 1 + k := ⟨S.length - (q.1.2.length + 1), by omega⟩
        have h5 : (ltrim rest).length - q.1.2.length ≤ k := by omega
        have h6 : ((ltrim rest).length - q.1.2.length) * (n + 2) ≤ k * (n + 2) := Nat.mul_le_mul_right _ h5
        have h7 : S.length * (7 * (n + 2)) = q.1.2.length * (7 * (n + 2)) + 7 * (n + 2) + 7 * (k * (n + 2)) := by rw [hk]; ring
        unfold call
        rw [List.length_append]
        rw [h7]
        have : k ≤ k * (n + 2) := Nat.le_mul_of_pos_right _ (by omega)
        omega
      | err e => dsimp only; omega
      | ub => dsimp only; omega

/-- The whole parser. -/
theorem parseC_bound (s : Str) : (parseC s).2 ≤ 20 * (s.length + 1) ^ 3 := by
  have hst := isStatementC_bound s
  have ht := trim_length s
  have hu : (rtrim ((trim s).take ((trim s).length - 1))).length ≤ s.length := by
    refine le_trans (rtrim_length _) (le_trans (List.length_take_le _ _) ?_); omega
  have ha := actorLoopC_bound (rtrim ((trim s).take ((trim s).length - 1))) []
  have ha' : (rtrim ((trim s).take ((trim s).length - 1))).length * (([] : Str).length + (rtrim ((trim s).take ((trim s).length - 1))).length + 2)
        ≤ s.length * (s.length + 2) := Nat.mul_le_mul hu (by rw [List.length_nil]; omega)
  have e0 : s.length + 1 ≤ (s.length + 1) ^ 3 := Nat.le_self_pow (by norm_num) _
  have e1 : s.length * (s.length + 2) ≤ (s.length + 1) ^ 3 := by
    generalize s.length = n
    nlinarith [Nat.zero_le (n ^ 3), Nat.zero_le (n ^ 2)]
  have e2 : s.length * (7 * (s.length + 2)) ≤ 7 * (s.length + 1) ^ 3 := by
    have : s.length * (7 * (s.length + 2)) = 7 * (s.length * (s.length + 2)) := by ring
    omega
  simp only [parseC]
  generalize hp : actorLoopC [] (rtrim ((trim s).take ((trim s).length - 1))) = p at *
  have hp1 := actorLoopC_fst (rtrim ((trim s).take ((trim s).length - 1))) []
  rw [hp] at hp1
  unfold call
  split
  · dsimp only; omega
  · split
    · rename_i actor rest he
      rw [he] at hp1
      have h1 := actorLoop_rest _ _ _ _ hp1.symm
      have h2 := ltrim_length rest
      have h3 := partsLoopC_bound s.length (ltrim rest).length (ltrim rest) [] [] (by rw [List.length_nil]; omega)
      have h4 : (ltrim rest).length * (7 * (s.length + 2)) ≤ s.length * (7 * (s.length + 2)) := Nat.mul_le_mul_right _ (by omega)
      split
      · dsimp only; omega
      · split <;> dsimp only <;> omega
    · dsimp only; omega
    · dsimp only; omega

/-! ### Accepted statements -/

theorem keywordLoopC_after_false (rec : Str → Counted Bool) (p : Str) (d : Byte) (hp : isKeywordMessagePart p = true) (hd : Ws d) (s : Str) :
    ∀ q, (keywordLoopC rec (p ++ d :: q) s).1 = false := by
  induction s with
  | nil => intro q; rfl
  | cons c cs ih =>
    intro q
    have h1 := ih (q ++ [c])
    rw [show p ++ d :: (q ++ [c]) = p ++ d :: q ++ [c] by simp] at h1
    simp only [keywordLoopC, part_split p d q hp hd, Bool.false_eq_true, if_false]
    split <;> exact h1

theorem keywordLoopC_true (rec : Str → Counted Bool) (s : Str) : ∀ pre, (keywordLoopC rec pre s).1 = true →
    ∃ u c cs, s = u ++ c :: cs ∧ (rec (ltrim cs)).1 = true ∧
      (keywordLoopC rec pre s).2 ≤ (u.length + 1) * (pre.length + u.length + 2) + (cs.length + 1) + (rec (ltrim cs)).2 := by
  induction s with
  | nil => intro pre h; cases h
  | cons c cs ih =>
    intro pre h
    have h2 : (pre ++ [c]).length = pre.length + 1 := by rw [List.length_append]; rfl
    have later : (keywordLoopC rec (pre ++ [c]) cs).1 = true →
        (keywordLoopC rec pre (c :: cs)).2 ≤ 1 + call pre + (keywordLoopC rec (pre ++ [c]) cs).2 →
        ∃ u d ds, c :: cs = u ++ d :: ds ∧ (rec (ltrim ds)).1 = true ∧
          (keywordLoopC rec pre (c :: cs)).2 ≤ (u.length + 1) * (pre.length + u.length + 2) + (ds.length + 1) + (rec (ltrim ds)).2 := by
      intro h1 h3
      obtain ⟨u, d, ds, e, g1, g2⟩ := ih _ h1
      refine ⟨c :: u, d, ds, by rw [e]; rfl, g1, ?_⟩
      rw [h2] at g2
      unfold call at h3
      rw [List.length_cons]
      have : (u.length + 1) * (pre.length + 1 + u.length + 2) + (pre.length + 2) ≤ (u.length + 1 + 1) * (pre.length + (u.length + 1) + 2) := by nlinarith
      omega
    by_cases hs : isSpace c
    · by_cases hp : isKeywordMessagePart pre
      · by_cases hr : (rec (ltrim cs)).1
        · refine ⟨[], c, cs, rfl, hr, ?_⟩
          simp only [keywordLoopC, hs, hp, hr, if_true]
          unfold call; rw [List.length_nil]; omega
        · have := keywordLoopC_after_false rec pre c hp ((isSpace_iff c).1 hs) cs []
          simp only [keywordLoopC, hs, hp, hr, if_true, if_false, Bool.false_eq_true] at h
          rw [show pre ++ c :: [] = pre ++ [c] from rfl, h] at this; cases this
      · refine later ?_ ?_
        · simpa only [keywordLoopC, hs, hp, if_true, if_false, Bool.false_eq_true] using h
        · simp only [keywordLoopC, hs, hp, if_true, if_false, Bool.false_eq_true]; omega
    · refine later ?_ ?_
      · simpa only [keywordLoopC, hs, if_false, Bool.false_eq_true] using h
      · simp only [keywordLoopC, hs, if_false, Bool.false_eq_true]; omega

theorem isKeywordMessageC_true (fuel : Nat) : ∀ s, (isKeywordMessageC fuel s).1 = true → (isKeywordMessageC fuel s).2 ≤ 4 * (s.length + 1) ^ 2 := by
  induction fuel with
  | zero => intro s h; cases h
  | succ fuel ih =>
    intro s h
    by_cases hp : isKeywordMessagePart s
    · simp only [isKeywordMessageC, hp, if_true]; unfold call; nlinarith
    · simp only [isKeywordMessageC, hp, if_false, Bool.false_eq_true] at h ⊢
      obtain ⟨u, c, cs, e, h1, h2⟩ := keywordLoopC_true _ _ _ h
      have h3 := ih _ h1
      have h4 := ltrim_length cs
      have h5 : ((ltrim cs).length + 1) ^ 2 ≤ (cs.length + 1) ^ 2 := Nat.pow_le_pow_left (by omega) 2
      have hl : s.length = u.length + 1 + cs.length := by rw [e, List.length_append, List.length_cons]; omega
      rw [List.length_nil] at h2
      unfold call
      generalize (keywordLoopC (isKeywordMessageC fuel) [] s).2 = x at *
      generalize (isKeywordMessageC fuel (ltrim cs)).2 = y at *
      rw [hl]
      generalize ((ltrim cs).length + 1) ^ 2 = z at *
      generalize u.length = a at *
      generalize cs.length = b at *
      nlinarith

theorem statementLoopC_true (s : Str) : ∀ pre, (statementLoopC pre s).1 = true →
    (statementLoopC pre s).2 ≤ s.length * (pre.length + s.length + 2) + 4 * (s.length + 1) ^ 2 + 2 * s.length := by
  induction s with
  | nil => intro pre h; cases h
  | cons c cs ih =>
    intro pre h
    have h1 := ih (pre ++ [c])
    have h2 : (pre ++ [c]).length = pre.length + 1 := by rw [List.length_append]; rfl
    rw [h2] at h1
    have hmul : cs.length * (pre.length + 1 + cs.length + 2) + (pre.length + 2) ≤ (cs.length + 1) * (pre.length + (cs.length + 1) + 2) := by nlinarith
    have hpow : (cs.length + 1) ^ 2 ≤ (cs.length + 1 + 1) ^ 2 := Nat.pow_le_pow_left (by omega) 2
    rw [List.length_cons]
    by_cases hs : isSpace c
    · by_cases hp : isActor pre
      · have h4 := ltrim_length cs
        have h5 : ((ltrim cs).length + 1) ^ 2 ≤ (cs.length + 1) ^ 2 := Nat.pow_le_pow_left (by omega) 2
        have : pre.length + 2 ≤ (cs.length + 1) * (pre.length + (cs.length + 1) + 2) := by nlinarith
        simp only [statementLoopC, hs, hp, if_true] at h ⊢
        by_cases hu : isUnaryMessage (ltrim cs)
        · simp only [hu, if_true]; unfold call; omega
        · simp only [hu, if_false, Bool.false_eq_true] at h ⊢
          have h3 := isKeywordMessageC_true _ _ h
          unfold call; omega
      · simp only [statementLoopC, hs, hp, if_true, if_false, Bool.false_eq_true] at h ⊢
        have := h1 h; unfold call; omega
    · simp only [statementLoopC, hs, if_false, Bool.false_eq_true] at h ⊢
      have := h1 h; omega

theorem isStatementC_true (s : Str) (h : (isStatementC s).1 = true) : (isStatementC s).2 ≤ 9 * (s.length + 1) ^ 2 := by
  simp only [isStatementC] at h ⊢
  split at h
  · cases h
  · rename_i hif
    rw [if_neg hif]
    dsimp only at h ⊢
    have h := statementLoopC_true _ _ h
    have h1 : (rtrim ((trim s).take ((trim s).length - 1))).length ≤ s.length := by
      refine le_trans (rtrim_length _) (le_trans (List.length_take_le _ _) ?_)
      have := trim_length s; omega
    have h2 := trim_length s
    have h3 : ((rtrim ((trim s).take ((trim s).length - 1))).length + 1) ^ 2 ≤ (s.length + 1) ^ 2 := Nat.pow_le_pow_left (by omega) 2
    have h4 : (rtrim ((trim s).take ((trim s).length - 1))).length * (([] : Str).length + (rtrim ((trim s).take ((trim s).length - 1))).length + 2)
        ≤ s.length * (s.length + 2) := Nat.mul_le_mul h1 (by rw [List.length_nil]; omega)
    have h5 : s.length * (s.length + 2) + 1 = (s.length + 1) ^ 2 := by ring
    have h6 : s.length + 1 ≤ (s.length + 1) ^ 2 := Nat.le_self_pow (by norm_num) _
    unfold call
    omega

/-- The parser on a statement it accepts. -/
theorem parseC_accepted (s : Str) (h : isStatement s = true) : (parseC s).2 ≤ 25 * (s.length + 1) ^ 2 := by
  have hs1 : (isStatementC s).1 = true := by rw [isStatementC_fst]; exact h
  have hst := isStatementC_true s hs1
  have ht := trim_length s
  have hu : (rtrim ((trim s).take ((trim s).length - 1))).length ≤ s.length := by
    refine le_trans (rtrim_length _) (le_trans (List.length_take_le _ _) ?_); omega
  have ha := actorLoopC_bound (rtrim ((trim s).take ((trim s).length - 1))) []
  have ha' : (rtrim ((trim s).take ((trim s).length - 1))).length * (([] : Str).length + (rtrim ((trim s).take ((trim s).length - 1))).length + 2)
        ≤ s.length * (s.length + 2) := Nat.mul_le_mul hu (by rw [List.length_nil]; omega)
  have e0 : s.length + 1 ≤ (s.length + 1) ^ 2 := Nat.le_self_pow (by norm_num) _
  have e1 : s.length * (s.length + 2) + 1 = (s.length + 1) ^ 2 := by ring
  have e2 : s.length * (7 * (s.length + 2)) + 7 = 7 * (s.length + 1) ^ 2 := by ring
  simp only [parseC]
  generalize hp : actorLoopC [] (rtrim ((trim s).take ((trim s).length - 1))) = p at *
  have hp1 := actorLoopC_fst (rtrim ((trim s).take ((trim s).length - 1))) []
  rw [hp] at hp1
  unfold call
  split
  · dsimp only; omega
  · split
    · rename_i actor rest he
      rw [he] at hp1
      have h1 := actorLoop_rest _ _ _ _ hp1.symm
      have h2 := ltrim_length rest
      have h3 := partsLoopC_bound s.length (ltrim rest).length (ltrim rest) [] [] (by rw [List.length_nil]; omega)
      have h4 : (ltrim rest).length * (7 * (s.length + 2)) ≤ s.length * (7 * (s.length + 2)) := Nat.mul_le_mul_right _ (by omega)
      split
      · dsimp only; omega
      · split <;> dsimp only <;> omega
    · dsimp only; omega
    · dsimp only; omega

end Knuckle
