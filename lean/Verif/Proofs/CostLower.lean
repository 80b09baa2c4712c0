/-
Texts for which the parser takes a cubic number of steps.
-/
import Verif.Proofs.Cost

namespace Knuckle

open Spec

/-- One keyword part and a space. -/
def onePart : Str := b!"a: 1 "

/-- `m` keyword parts, then something that is not one. -/
def hostile : Nat → Str
  | 0 => b!"!"
  | m + 1 => onePart ++ hostile m

theorem hostile_length (m : Nat) : (hostile m).length = 5 * m + 1 := by
  induction m with
  | zero => rfl
  | succ m ih => rw [hostile, List.length_append, ih]; simp [onePart]; omega

theorem hostile_last (m : Nat) : ∃ u, hostile m = u ++ b!"!" := by
  induction m with
  | zero => exact ⟨[], rfl⟩
  | succ m ih => obtain ⟨u, h⟩ := ih; exact ⟨onePart ++ u, by rw [hostile, h]; simp⟩

theorem hostile_ltrim (m : Nat) : ltrim (hostile m) = hostile m := by
  cases m with
  | zero => rfl
  | succ m => exact ltrim_cons_of_not _ _ (by unfold Ws; decide)

theorem hostile_no_newline (m : Nat) : (10 : Byte) ∉ hostile m := by
  induction m with
  | zero => decide
  | succ m ih => rw [hostile, List.mem_append]; rintro (h | h); · exact absurd h (by decide)
                 · exact ih h

theorem argument_not_bang (u : Str) : ¬ Argument (u ++ b!"!") := by
  intro h
  rcases argument_cases _ h with ⟨h, _⟩ | ⟨c, e⟩ | ⟨b, e, _⟩
  · have := h c!"!" (by simp)
    rcases this with h | h | h | h <;> revert h <;> (try unfold Letter) <;> (try unfold Digit) <;> decide
  · have := (List.append_inj' (s₁ := [c!"'", c]) (t₁ := [c!"'"]) (s₂ := u) (t₂ := [c!"!"]) (by simpa using e.symm) rfl).2
    revert this; decide
  · have := (List.append_inj' (s₁ := c!"\"" :: b) (t₁ := [c!"\""]) (s₂ := u) (t₂ := [c!"!"]) (by simpa using e.symm) rfl).2
    revert this; decide

theorem keyword_ends_in_argument (t n : Str) (a : List Str) (h : KeywordMessage t n a) : ∃ u arg, t = u ++ arg ∧ Argument arg := by
  induction h with
  | @one tok w arg ht hw ha => exact ⟨tok ++ w, arg, by simp, ha⟩
  | @more tok w arg c w' text name args ht hw ha hc hw' hk ih =>
    obtain ⟨u, arg', rfl, h⟩ := ih
    exact ⟨tok ++ (w ++ (arg ++ (c :: (w' ++ u)))), arg', by simp, h⟩

theorem keyword_not_bang (u n : Str) (a : List Str) : ¬ KeywordMessage (u ++ b!"!") n a := by
  intro h
  obtain ⟨v, arg, e, ha⟩ := keyword_ends_in_argument _ _ _ h
  obtain ⟨w, z, rfl⟩ : ∃ w z, arg = w ++ [z] := by
    rcases List.eq_nil_or_concat arg with rfl | ⟨w, z, rfl⟩
    · exact absurd rfl (argument_ne_nil _ ha)
    · exact ⟨w, z, by simp⟩
  rw [← List.append_assoc] at e
  have := (List.append_inj' e rfl).2
  injection this with this; subst this
  exact argument_not_bang w ha

theorem hostile_not_keyword (fuel m : Nat) : isKeywordMessageF fuel (hostile m) = false := by
  rw [Bool.eq_false_iff]
  intro h
  obtain ⟨n, a, h⟩ := isKeywordMessageF_sound _ _ h
  obtain ⟨u, e⟩ := hostile_last m
  rw [e] at h
  exact keyword_not_bang _ _ _ h

/-- The steps spent in testing the prefixes before spaces. -/
def spaceSum : Nat → Str → Nat
  | _, [] => 0
  | k, c :: cs => (if isSpace c then k + 1 else 0) + spaceSum (k + 1) cs

theorem keywordLoopC_ge (rec : Str → Counted Bool) (s : Str) : ∀ pre, (keywordLoopC rec pre s).1 = false →
    spaceSum pre.length s ≤ (keywordLoopC rec pre s).2 := by
  induction s with
  | nil => intro pre _; exact Nat.zero_le _
  | cons c cs ih =>
    intro pre h
    have h2 : (pre ++ [c]).length = pre.length + 1 := by rw [List.length_append]; rfl
    have ih' := ih (pre ++ [c])
    rw [h2] at ih'
    simp only [keywordLoopC, spaceSum] at h ⊢
    unfold call
    by_cases hs : isSpace c
    · simp only [hs, if_true] at h ⊢
      by_cases hp : isKeywordMessagePart pre
      · simp only [hp, if_true] at h ⊢
        by_cases hr : (rec (ltrim cs)).1
        · simp [hr] at h
        · simp only [hr, if_false, Bool.false_eq_true] at h ⊢
          have := ih' h; omega
      · simp only [hp, if_false, Bool.false_eq_true] at h ⊢
        have := ih' h; omega
    · simp only [hs, if_false, Bool.false_eq_true] at h ⊢
      have := ih' h; omega

theorem spaceSum_hostile (m : Nat) : ∀ k, m * (2 * k + 3) + 5 * (m * m) ≤ spaceSum k (hostile m) := by
  induction m with
  | zero => intro k; omega
  | succ m ih =>
    intro k
    have h := ih (k + 5)
    have e : spaceSum k (hostile (m + 1)) = (k + 2 + 1) + ((k + 4 + 1) + spaceSum (k + 5) (hostile m)) := by
      simp only [hostile, onePart, List.cons_append, List.nil_append, spaceSum]
      simp [isSpace]
    rw [e]
    nlinarith

theorem hostile_cost (m : Nat) : ∀ fuel, m < fuel → m ^ 3 ≤ (isKeywordMessageC fuel (hostile m)).2 := by
  induction m with
  | zero => intro fuel _; simp
  | succ m ih =>
    intro fuel hf
    obtain ⟨fuel, rfl⟩ : ∃ f, fuel = f + 1 := ⟨fuel - 1, by omega⟩
    have hr := ih fuel (by omega)
    have hnp : isKeywordMessagePart (hostile (m + 1)) = false := by
      rw [Bool.eq_false_iff]; intro h
      have := hostile_not_keyword 1 (m + 1)
      simp [isKeywordMessageF, h] at this
    have hfalse : (isKeywordMessageC fuel (hostile m)).1 = false := by rw [isKeywordMessageC_fst]; exact hostile_not_keyword _ _
    have hall : (isKeywordMessageC (fuel + 1) (hostile (m + 1))).1 = false := by rw [isKeywordMessageC_fst]; exact hostile_not_keyword _ _
    simp only [isKeywordMessageC, hnp, Bool.false_eq_true, if_false] at hall ⊢
    have hs : ∀ (pre cs : Str) (c : Byte), isSpace c = false → keywordLoopC (isKeywordMessageC fuel) pre (c :: cs) =
        ((keywordLoopC (isKeywordMessageC fuel) (pre ++ [c]) cs).1, 1 + (keywordLoopC (isKeywordMessageC fuel) (pre ++ [c]) cs).2) := by
      intro pre cs c h; simp only [keywordLoopC, h, Bool.false_eq_true, if_false]
    have e1 : hostile (m + 1) = c!"a" :: c!":" :: c!" " :: c!"1" :: c!" " :: hostile m := rfl
    rw [e1] at hall ⊢
    rw [hs _ _ _ (by decide), hs _ _ _ (by decide)] at hall ⊢
    simp only [List.nil_append, List.cons_append] at hall ⊢
    have p1 : isKeywordMessagePart b!"a:" = false := by decide +kernel
    have p2 : isKeywordMessagePart b!"a: 1" = true := by decide +kernel
    rw [keywordLoopC] at hall ⊢
    simp only [show isSpace c!" " = true from rfl, if_true, p1, if_false, Bool.false_eq_true] at hall ⊢
    rw [hs _ _ _ (by decide)] at hall ⊢
    simp only [List.nil_append, List.cons_append] at hall ⊢
    rw [keywordLoopC] at hall ⊢
    simp only [show isSpace c!" " = true from rfl, if_true, p2, hostile_ltrim, hfalse, if_false, Bool.false_eq_true] at hall ⊢
    have hl := keywordLoopC_ge _ _ _ hall
    have hk := spaceSum_hostile m 5
    simp only [List.nil_append, List.cons_append, List.length_cons, List.length_nil] at hl hk ⊢
    unfold call
    nlinarith

/-- A request line with these parts. -/
def hostileText (m : Nat) : Str := b!"x " ++ (hostile m ++ b!";")

theorem hostileText_isStatement (m : Nat) : (isStatementC (hostileText m)).1 = false ∧ m ^ 3 ≤ (isStatementC (hostileText m)).2 := by
  obtain ⟨u, hu⟩ := hostile_last m
  have ht : trim (hostileText m) = hostileText m := by
    have h1 : ltrim (hostileText m) = hostileText m := ltrim_cons_of_not _ _ (by unfold Ws; decide)
    have h2 : NoTrail (hostileText m) := by
      intro d ds e
      have e' : (b!"x " ++ hostile m) ++ [c!";"] = ds ++ [d] := by rw [← e]; simp [hostileText]
      have := (List.append_inj' e' rfl).2
      injection this with this; subst this; unfold Ws; decide
    unfold trim; rw [h1, rtrim_of_noTrail _ h2]
  have htake : (hostileText m).take ((hostileText m).length - 1) = b!"x " ++ hostile m := by
    have : hostileText m = (b!"x " ++ hostile m) ++ [c!";"] := by simp [hostileText]
    rw [this]; exact take_last _ _
  have hlast : (hostileText m).getD ((hostileText m).length - 1) 0 = c!";" := by
    have : hostileText m = (b!"x " ++ hostile m) ++ [c!";"] := by simp [hostileText]
    rw [this]; exact getD_last _ _
  have hrt : rtrim (b!"x " ++ hostile m) = b!"x " ++ hostile m := by
    refine rtrim_of_noTrail _ ?_
    intro d ds e
    rw [hu, ← List.append_assoc] at e
    have := (List.append_inj' e rfl).2
    injection this with this; subst this; unfold Ws; decide
  have hun : isUnaryMessage (hostile m) = false := by
    rw [Bool.eq_false_iff]; intro h
    rw [isUnaryMessage_iff] at h
    have hb : c!"!" ∈ hostile m := by rw [hu]; simp
    rcases h with h | ⟨i, e, h⟩
    · exact identifier_not_mem _ h c!"!" (by unfold Letter Digit; decide) hb
    · rw [e, List.mem_append] at hb
      rcases hb with hb | hb
      · exact identifier_not_mem _ h c!"!" (by unfold Letter Digit; decide) hb
      · revert hb; decide
  have hcost := hostile_cost m ((hostile m).length + 1) (by rw [hostile_length]; omega)
  · simp only [isStatementC, ht, htake, hrt, hlast]
    rw [if_neg (by simp [hostileText])]
    have e : statementLoopC [] (b!"x " ++ hostile m) = ((isKeywordMessageC ((hostile m).length + 1) (hostile m)).1,
        1 + (1 + call b!"x" + call (hostile m) + call (hostile m) + (isKeywordMessageC ((hostile m).length + 1) (hostile m)).2)) := by
      have hx : isActor b!"x" = true := by decide +kernel
      simp only [List.cons_append, List.nil_append]
      rw [statementLoopC]
      simp only [show isSpace c!"x" = false from rfl, Bool.false_eq_true, if_false, List.nil_append]
      rw [statementLoopC]
      simp only [show isSpace c!" " = true from rfl, if_true, hx, hostile_ltrim, hun, Bool.false_eq_true, if_false]
    rw [e]
    dsimp only
    refine ⟨?_, by omega⟩
    rw [isKeywordMessageC_fst]; exact hostile_not_keyword _ _

theorem hostileText_invalid (m : Nat) : parse (hostileText m) = .err .invalidStatement := by
  have h := (hostileText_isStatement m).1
  rw [isStatementC_fst] at h
  simp [parse, h]

theorem hostileText_cost (m : Nat) : m ^ 3 ≤ (parseC (hostileText m)).2 := by
  refine le_trans (hostileText_isStatement m).2 ?_
  simp only [parseC]
  split
  · exact le_refl _
  · split
    · split
      · dsimp only; omega
      · split <;> dsimp only <;> omega
    · dsimp only; omega
    · dsimp only; omega

theorem hostileText_length (m : Nat) : (hostileText m).length = 5 * m + 4 := by
  unfold hostileText; rw [List.length_append, List.length_append, hostile_length]; simp; omega

theorem hostileText_no_newline (m : Nat) : (10 : Byte) ∉ hostileText m := by
  unfold hostileText
  rw [List.mem_append, List.mem_append]
  rintro (h | h | h)
  · exact absurd h (by decide)
  · exact hostile_no_newline m h
  · exact absurd h (by decide)

end Knuckle
