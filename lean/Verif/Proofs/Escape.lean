/-
Escaping, un-escaping, and which values have a literal.
-/
import Verif.Proofs.Values

namespace Knuckle

open Spec

theorem escape_nil (q : Byte) : escape q [] = [] := rfl
theorem escape_cons (q c : Byte) (s : Str) :
    escape q (c :: s) = if c == q then c!"\\" :: c :: escape q s else c :: escape q s := rfl

theorem escape_unquoted (b v : Str) (h : Unquoted b v) : escape c!"\"" v = b := by
  induction h with
  | nil => rfl
  | quote _ ih => rw [escape_cons, ih]; rfl
  | other h1 _ _ ih => rw [escape_cons, ih, beq_false_of_ne h1]; rfl

theorem unescape_escape (v : Str) : unescape c!"\"" (escape c!"\"" v) = v := by
  induction v with
  | nil => rfl
  | cons c s ih =>
    rw [escape_cons]
    by_cases h : c = c!"\""
    · subst h
      simp only [beq_self_eq_true, if_true]
      cases he : escape c!"\"" s with
      | nil => rw [he] at ih; simp [unescape] at ih ⊢; exact ih
      | cons x xs => rw [he] at ih; simp [unescape, ih]
    · rw [beq_false_of_ne h]
      simp only [Bool.false_eq_true, if_false]
      cases he : escape c!"\"" s with
      | nil => rw [he] at ih; simp [unescape] at ih ⊢; exact ih
      | cons x xs =>
        rw [he] at ih
        simp only [unescape]
        -- x is not a bare quote: the escaped text never starts with a quote
        have hx : x ≠ c!"\"" := by
          rintro rfl
          cases s with
          | nil => simp [escape] at he
          | cons d ds =>
            rw [escape_cons] at he
            split at he
            · cases he
            · rename_i hd; injection he with he _; exact hd (by simp [he])
        rw [beq_false_of_ne hx, Bool.and_false]
        simp [ih]

theorem escape_inj (v w : Str) (h : escape c!"\"" v = escape c!"\"" w) : v = w := by
  rw [← unescape_escape v, h, unescape_escape]

theorem quoted_inj (v w : Str) (h : quoted v = quoted w) : v = w := by
  unfold quoted at h
  injection h with _ h
  exact escape_inj _ _ (List.append_cancel_right h)

theorem literal_quoted (a v : Str) (h : StringLiteral a v) : quoted v = a := by
  obtain ⟨b, rfl, _, hu⟩ := h
  unfold quoted; rw [escape_unquoted b v hu]

/-- Every value escapes to something that stands for it, except that it may not be a body. -/
theorem unquoted_escape (v : Str) : Unquoted (escape c!"\"" v) v := by
  induction v with
  | nil => exact .nil
  | cons c s ih =>
    rw [escape_cons]
    by_cases h : c = c!"\""
    · subst h; exact .quote ih
    · rw [beq_false_of_ne h]
      refine .other h (fun _ => ?_) ih
      cases s with
      | nil => simp [escape]
      | cons d ds =>
        rw [escape_cons]
        split
        · simp
        · rename_i hd; simpa using hd

/-- The automaton for values that have a literal. -/
def valOk : Bool → Str → Bool
  | odd, [] => !odd
  | odd, c :: cs =>
    if c == c!"\\" then valOk (!odd) cs else if c == c!"\"" then !odd && valOk false cs else valOk false cs

theorem bodyOk_escape (v : Str) : ∀ odd, bodyOk odd (escape c!"\"" v) = valOk odd v := by
  induction v with
  | nil => intro odd; rfl
  | cons c s ih =>
    intro odd
    rw [escape_cons]
    by_cases h : c = c!"\""
    · subst h
      simp [bodyOk, valOk, ih]
    · rw [beq_false_of_ne h]
      simp [bodyOk, valOk, ih, h]

/-- An even number of backslashes before every quote and at the end. -/
def ValParity (pre s : Str) : Prop :=
  (∀ p q, s = p ++ c!"\"" :: q → trail (pre ++ p) % 2 = 0) ∧ trail (pre ++ s) % 2 = 0

theorem valOk_parity (s : Str) : ∀ pre, valOk (decide (trail pre % 2 = 1)) s = true ↔ ValParity pre s := by
  induction s with
  | nil =>
    intro pre
    simp [valOk, ValParity]
  | cons c cs ih =>
    intro pre
    have hall : pre ++ c :: cs = (pre ++ [c]) ++ cs := by simp
    have hsplit : ValParity pre (c :: cs) ↔ (c = c!"\"" → trail pre % 2 = 0) ∧ ValParity (pre ++ [c]) cs := by
      unfold ValParity
      rw [hall]
      constructor
      · rintro ⟨h1, h2⟩
        refine ⟨fun hc => ?_, fun p q e => ?_, h2⟩
        · have := h1 [] cs (by simp [hc]); simpa using this
        · have := h1 (c :: p) q (by simp [e]); simpa using this
      · rintro ⟨h0, h1, h2⟩
        refine ⟨fun p q e => ?_, h2⟩
        cases p with
        | nil => injection e with e _; simpa using h0 e
        | cons x p => injection e with e1 e2; subst e1; have := h1 p q e2; simpa using this
    rw [hsplit, ← ih]
    simp only [valOk]
    by_cases hc : c = c!"\\"
    · subst hc
      rw [trail_append_bs]
      have : (!decide (trail pre % 2 = 1)) = decide ((trail pre + 1) % 2 = 1) := by
        rw [Bool.eq_iff_iff]; simp; omega
      simp [this]
    · rw [trail_append_other pre c hc]
      by_cases hq : c = c!"\""
      · subst hq; simp
      · simp [hc, hq]

/-- A value has a literal iff its printed form is one. -/
theorem literal_iff (v : Str) : (∃ a, StringLiteral a v) ↔ ValParity [] v := by
  have h2 := valOk_parity v []
  rw [show decide (trail [] % 2 = 1) = false from rfl, ← bodyOk_escape, bodyOk_iff] at h2
  rw [← h2]
  constructor
  · rintro ⟨a, b, _, hb, hu⟩; rw [escape_unquoted b v hu]; exact hb
  · intro h; exact ⟨_, _, rfl, h, unquoted_escape v⟩

theorem quoted_literal_iff (v : Str) : StringLiteral (quoted v) v ↔ ValParity [] v := by
  rw [← literal_iff]
  constructor
  · intro h; exact ⟨_, h⟩
  · rintro ⟨a, h⟩; rw [literal_quoted a v h]; exact h

theorem quoted_value_iff (v : Str) : StringValue (quoted v) ↔ ValParity [] v := by
  rw [← quoted_literal_iff]
  constructor
  · rintro ⟨b, h1, h2⟩
    unfold quoted at h1 ⊢
    injection h1 with _ h1
    have e := List.append_cancel_right h1
    exact ⟨_, rfl, by rw [e]; exact h2, unquoted_escape v⟩
  · rintro ⟨b, h1, h2, _⟩; exact ⟨b, h1, h2⟩

end Knuckle
