/-
How deep the recognizer of statements recurses.
-/
import Verif.Model.Depth
import Verif.Proofs.CostLower

namespace Knuckle

open Spec

theorem keywordLoopD_fst (rec : Str → Tracked Bool) (rec' : Str → Counted Bool) (h : ∀ s, (rec s).1 = (rec' s).1) (s : Str) :
    ∀ pre, (keywordLoopD rec pre s).1 = (keywordLoopC rec' pre s).1 := by
  induction s with
  | nil => intro pre; rfl
  | cons c cs ih =>
    intro pre
    simp only [keywordLoopD, keywordLoopC]
    by_cases h1 : isSpace c
    · by_cases h2 : isKeywordMessagePart pre
      · have h0 := h (ltrim cs)
        by_cases h3 : (rec (ltrim cs)).1
        · rw [h3] at h0; simp [h1, h2, h3, ← h0]
        · rw [Bool.not_eq_true] at h3; rw [h3] at h0; simp [h1, h2, h3, ← h0, ih]
      · simp [h1, h2, ih]
    · simp [h1, ih]

theorem isKeywordMessageD_fst (fuel : Nat) : ∀ s, (isKeywordMessageD fuel s).1 = isKeywordMessageF fuel s := by
  have : ∀ s, (isKeywordMessageD fuel s).1 = (isKeywordMessageC fuel s).1 := by
    induction fuel with
    | zero => intro s; rfl
    | succ fuel ih =>
      intro s
      simp only [isKeywordMessageD, isKeywordMessageC]
      by_cases h : isKeywordMessagePart s
      · simp [h]
      · rw [if_neg h, if_neg h]; exact keywordLoopD_fst _ _ ih _ _
  intro s; rw [this, isKeywordMessageC_fst]

theorem statementLoopD_fst (s : Str) : ∀ pre, (statementLoopD pre s).1 = statementLoop pre s := by
  induction s with
  | nil => intro pre; rfl
  | cons c cs ih =>
    intro pre
    simp only [statementLoopD, statementLoop]
    split
    · by_cases h3 : isUnaryMessage (ltrim cs)
      · simp [h3]
      · simp [h3, isKeywordMessageD_fst, isKeywordMessage]
    · exact ih _

theorem isStatementD_fst (s : Str) : (isStatementD s).1 = isStatement s := by
  simp only [isStatementD, isStatement]
  split
  · rfl
  · exact statementLoopD_fst _ _

theorem parseD_fst (s : Str) : (parseD s).1 = parse s := by
  simp only [parseD, isStatementD_fst]
  split
  · rfl
  · rename_i h; simp [parse, h]

/-! ### Upper bounds -/

theorem part_length (p : Str) (h : isKeywordMessagePart p = true) : 3 ≤ p.length := by
  have key : ∀ s pre, partLoop pre s = true → 3 ≤ pre.length + s.length := by
    intro s
    induction s with
    | nil => intro pre h; cases h
    | cons c cs ih =>
      intro pre h
      simp only [partLoop] at h
      split at h
      · rw [Bool.and_eq_true] at h
        obtain ⟨h1, h2⟩ := h
        have hp : 1 ≤ pre.length := by
          unfold isKeywordMessageToken at h1
          rw [Bool.and_eq_true] at h1
          cases pre with
          | nil => exact absurd (show isIdentifier [] = true from h1.2) (by decide)
          | cons => simp
        have hc : 1 ≤ cs.length := by
          cases cs with
          | nil => exact absurd h2 (by decide +kernel)
          | cons => simp
        rw [List.length_cons]; omega
      · have := ih _ h
        rw [List.length_append] at this
        simp only [List.length_cons, List.length_nil] at this ⊢; omega
  have := key p [] h
  simpa using this

theorem keywordLoopD_le (rec : Str → Tracked Bool) (n d b : Nat) (h : ∀ s, s.length + 4 ≤ n → (rec s).2.1 ≤ d ∧ (rec s).2.2 ≤ b) (s : Str) :
    ∀ pre, pre.length + s.length ≤ n → (keywordLoopD rec pre s).2.1 ≤ d ∧ (keywordLoopD rec pre s).2.2 ≤ b := by
  induction s with
  | nil => intro pre _; exact ⟨Nat.zero_le _, Nat.zero_le _⟩
  | cons c cs ih =>
    intro pre hl
    have h2 : (pre ++ [c]).length = pre.length + 1 := by rw [List.length_append]; rfl
    rw [List.length_cons] at hl
    have ih' := ih (pre ++ [c]) (by omega)
    simp only [keywordLoopD]
    split
    · rename_i hc
      rw [Bool.and_eq_true] at hc
      have h3 := part_length _ hc.2
      have h4 := h (ltrim cs) (by have := ltrim_length cs; omega)
      split
      · exact h4
      · exact ⟨max_le h4.1 ih'.1, max_le h4.2 ih'.2⟩
    · exact ih'

theorem isKeywordMessageD_le (fuel : Nat) : ∀ n s, s.length ≤ n → (isKeywordMessageD fuel s).2.1 ≤ n / 4 + 1 ∧
    (isKeywordMessageD fuel s).2.2 ≤ (n / 4 + 1) * n := by
  induction fuel with
  | zero => intro n s _; exact ⟨Nat.zero_le _, Nat.zero_le _⟩
  | succ fuel ih =>
    intro n s hs
    simp only [isKeywordMessageD]
    split
    · refine ⟨by simp, ?_⟩
      simp only []
      calc s.length ≤ 1 * n := by omega
        _ ≤ _ := Nat.mul_le_mul_right _ (by omega)
    · have := keywordLoopD_le (isKeywordMessageD fuel) n (n / 4) (n / 4 * n) (fun t ht => by
        have := ih (n - 4) t (by omega)
        have e : (n - 4) / 4 + 1 = n / 4 := by omega
        rw [e] at this
        exact ⟨this.1, this.2.trans (Nat.mul_le_mul_left _ (by omega))⟩) s [] (by simpa using hs)
      simp only []
      refine ⟨by omega, ?_⟩
      rw [Nat.add_mul, Nat.one_mul]; omega

theorem statementLoopD_le (n : Nat) (s : Str) : ∀ pre, s.length ≤ n → (statementLoopD pre s).2.1 ≤ n / 4 + 1 ∧
    (statementLoopD pre s).2.2 ≤ (n / 4 + 1) * n := by
  induction s with
  | nil => intro pre _; exact ⟨Nat.zero_le _, Nat.zero_le _⟩
  | cons c cs ih =>
    intro pre hs
    rw [List.length_cons] at hs
    simp only [statementLoopD]
    split
    · split
      · exact ⟨Nat.zero_le _, Nat.zero_le _⟩
      · exact isKeywordMessageD_le _ n _ ((ltrim_length cs).trans (by omega))
    · exact ih _ (by omega)

theorem parseD_le (s : Str) : (parseD s).2.1 ≤ s.length / 4 + 1 ∧ (parseD s).2.2 ≤ (s.length / 4 + 1) * s.length := by
  simp only [parseD, isStatementD]
  split
  · exact ⟨Nat.zero_le _, Nat.zero_le _⟩
  · refine statementLoopD_le s.length _ _ ((rtrim_length _).trans ?_)
    have := trim_length s
    rw [List.length_take]; omega

/-! ### They are reached -/

/-- The bytes of the texts of `m + 1` nested calls on `hostile m`. -/
def hostileBytes : Nat → Nat
  | 0 => 1
  | m + 1 => 5 * (m + 1) + 1 + hostileBytes m

theorem hostileBytes_ge (m : Nat) : 2 * (m * m) ≤ hostileBytes m := by
  induction m with
  | zero => simp
  | succ m ih => simp only [hostileBytes]; nlinarith

theorem hostile_depth (m : Nat) : ∀ fuel, m < fuel → m + 1 ≤ (isKeywordMessageD fuel (hostile m)).2.1 ∧
    hostileBytes m ≤ (isKeywordMessageD fuel (hostile m)).2.2 := by
  induction m with
  | zero =>
    intro fuel hf
    obtain ⟨fuel, rfl⟩ : ∃ f, fuel = f + 1 := ⟨fuel - 1, by omega⟩
    simp only [isKeywordMessageD]
    split
    · exact ⟨le_refl _, le_refl _⟩
    · exact ⟨Nat.le_add_right _ _, by simp [hostile, hostileBytes]⟩
  | succ m ih =>
    intro fuel hf
    obtain ⟨fuel, rfl⟩ : ∃ f, fuel = f + 1 := ⟨fuel - 1, by omega⟩
    have hr := ih fuel (by omega)
    have hnp : isKeywordMessagePart (hostile (m + 1)) = false := by
      rw [Bool.eq_false_iff]; intro h
      have := hostile_not_keyword 1 (m + 1)
      simp [isKeywordMessageF, h] at this
    have hfalse : (isKeywordMessageD fuel (hostile m)).1 = false := by rw [isKeywordMessageD_fst]; exact hostile_not_keyword _ _
    simp only [isKeywordMessageD, hnp, Bool.false_eq_true, if_false]
    have hs : ∀ (pre cs : Str) (c : Byte), (isSpace c && isKeywordMessagePart pre) = false → keywordLoopD (isKeywordMessageD fuel) pre (c :: cs) =
        keywordLoopD (isKeywordMessageD fuel) (pre ++ [c]) cs := by
      intro pre cs c h; simp only [keywordLoopD, h, Bool.false_eq_true, if_false]
    have e1 : hostile (m + 1) = c!"a" :: c!":" :: c!" " :: c!"1" :: c!" " :: hostile m := rfl
    have hl : ∀ b, b ≤ (isKeywordMessageD fuel (hostile m)).2.1 → b ≤ (keywordLoopD (isKeywordMessageD fuel) [] (hostile (m + 1))).2.1 := by
      intro b hb
      rw [e1, hs _ _ _ (by decide), hs _ _ _ (by decide), hs _ _ _ (by decide +kernel), hs _ _ _ (by decide)]
      simp only [List.nil_append, List.cons_append]
      rw [keywordLoopD, if_pos (by decide +kernel)]
      simp only [hostile_ltrim, hfalse, Bool.false_eq_true, if_false]
      exact le_trans hb (le_max_left _ _)
    have hb : ∀ b, b ≤ (isKeywordMessageD fuel (hostile m)).2.2 → b ≤ (keywordLoopD (isKeywordMessageD fuel) [] (hostile (m + 1))).2.2 := by
      intro b hb
      rw [e1, hs _ _ _ (by decide), hs _ _ _ (by decide), hs _ _ _ (by decide +kernel), hs _ _ _ (by decide)]
      simp only [List.nil_append, List.cons_append]
      rw [keywordLoopD, if_pos (by decide +kernel)]
      simp only [hostile_ltrim, hfalse, Bool.false_eq_true, if_false]
      exact le_trans hb (le_max_left _ _)
    have h1 := hl _ hr.1
    have h2 := hb _ hr.2
    rw [hostile_length]
    simp only [hostileBytes]
    omega

theorem hostileText_depth (m : Nat) : m + 1 ≤ (parseD (hostileText m)).2.1 ∧ hostileBytes m ≤ (parseD (hostileText m)).2.2 := by
  obtain ⟨u, hu⟩ := hostile_last m
  have ht : trim (hostileText m) = hostileText m := by
    have h1 : ltrim (hostileText m) = hostileText m := ltrim_cons_of_not _ _ (by unfold Ws; decide)
    have h2 : NoTrail (hostileText m) := by
      intro d ds e
      have e' : (b!"x " ++ hostile m) ++ [c!";"] = ds ++ [d] := by rw [← e]; simp [hostileText]
      have := (List.append_inj' e' rfl).2
      injection this with this; subst this; unfold Ws; decide
    unfold trim; rw [h1, rtrim_of_noTrail _ h2]
  have htake : (hostileText m).take ((hostileText m).length - 1) = b!"x " ++ hostile m := by
    have : hostileText m = (b!"x " ++ hostile m) ++ [c!";"] := by simp [hostileText]
    rw [this]; exact take_last _ _
  have hlast : (hostileText m).getD ((hostileText m).length - 1) 0 = c!";" := by
    have : hostileText m = (b!"x " ++ hostile m) ++ [c!";"] := by simp [hostileText]
    rw [this]; exact getD_last _ _
  have hrt : rtrim (b!"x " ++ hostile m) = b!"x " ++ hostile m := by
    refine rtrim_of_noTrail _ ?_
    intro d ds e
    rw [hu, ← List.append_assoc] at e
    have := (List.append_inj' e rfl).2
    injection this with this; subst this; unfold Ws; decide
  have hun : isUnaryMessage (hostile m) = false := by
    rw [Bool.eq_false_iff]; intro h
    rw [isUnaryMessage_iff] at h
    have hb : c!"!" ∈ hostile m := by rw [hu]; simp
    rcases h with h | ⟨i, e, h⟩
    · exact identifier_not_mem _ h c!"!" (by unfold Letter Digit; decide) hb
    · rw [e, List.mem_append] at hb
      rcases hb with hb | hb
      · exact identifier_not_mem _ h c!"!" (by unfold Letter Digit; decide) hb
      · revert hb; decide
  simp only [parseD, isStatementD, ht, htake, hrt, hlast]
  rw [if_neg (by simp [hostileText])]
  have e : statementLoopD [] (b!"x " ++ hostile m) = isKeywordMessageD ((hostile m).length + 1) (hostile m) := by
    have hx : isActor b!"x" = true := by decide +kernel
    simp only [List.cons_append, List.nil_append]
    rw [statementLoopD]
    simp only [show isSpace c!"x" = false from rfl, Bool.false_and, Bool.false_eq_true, if_false, List.nil_append]
    rw [statementLoopD]
    simp only [show isSpace c!" " = true from rfl, hx, Bool.true_and, if_true, hostile_ltrim, hun, Bool.false_eq_true, if_false]
  rw [e]
  exact hostile_depth m _ (by rw [hostile_length]; omega)

end Knuckle
