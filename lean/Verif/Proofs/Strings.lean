/-
Lemmas about `str_utils`.
-/
import Verif.Model.StrUtils
import Verif.Spec.Grammar

namespace Knuckle

open Spec

theorem isSpace_iff (c : Byte) : isSpace c = true ↔ Ws c := by
  unfold isSpace Ws; simp

theorem isSpace_false_iff (c : Byte) : isSpace c = false ↔ ¬ Ws c := by
  rw [← isSpace_iff]; simp

theorem isNumeric_iff (c : Byte) : isNumeric c = true ↔ Digit c := by
  unfold isNumeric Digit; simp

theorem isAlpha_iff (c : Byte) : isAlpha c = true ↔ Letter c := by
  unfold isAlpha Letter; simp

theorem isAlphanumeric_iff (c : Byte) : isAlphanumeric c = true ↔ Letter c ∨ Digit c := by
  unfold isAlphanumeric; simp [isAlpha_iff, isNumeric_iff]

/-! ### trimming -/

theorem ltrim_spec (s : Str) : ∃ w, Spaces w ∧ s = w ++ ltrim s := by
  induction s with
  | nil => exact ⟨[], by simp [Spaces], rfl⟩
  | cons c cs ih =>
    obtain ⟨w, hw, h⟩ := ih
    unfold ltrim
    split
    · rename_i hc
      refine ⟨c :: w, ?_, ?_⟩
      · intro d hd
        rcases List.mem_cons.1 hd with rfl | hd
        · exact (isSpace_iff _).1 hc
        · exact hw d hd
      · rw [List.cons_append, ← h]
    · exact ⟨[], by simp [Spaces], rfl⟩

theorem ltrim_head (s : Str) (c : Byte) (cs : Str) (h : ltrim s = c :: cs) : ¬ Ws c := by
  induction s with
  | nil => simp [ltrim] at h
  | cons d ds ih =>
    unfold ltrim at h
    split at h
    · exact ih h
    · rename_i hd
      injection h with h1 h2
      subst h1
      rw [← isSpace_iff]; exact hd

theorem ltrim_spaces_append (w s : Str) (hw : Spaces w) : ltrim (w ++ s) = ltrim s := by
  induction w with
  | nil => rfl
  | cons c cs ih =>
    have hc : isSpace c = true := (isSpace_iff c).2 (hw c (by simp))
    simp only [List.cons_append, ltrim, hc, if_true]
    exact ih fun d hd => hw d (by simp [hd])

theorem ltrim_cons_of_not (c : Byte) (s : Str) (h : ¬ Ws c) : ltrim (c :: s) = c :: s := by
  have : isSpace c = false := (isSpace_false_iff c).2 h
  simp [ltrim, this]

/-- The text does not start with white space. -/
def NoLead (s : Str) : Prop := ∀ c cs, s = c :: cs → ¬ Ws c

/-- The text does not end with white space. -/
def NoTrail (s : Str) : Prop := ∀ c cs, s = cs ++ [c] → ¬ Ws c

theorem ltrim_noLead (s : Str) : NoLead (ltrim s) := fun c cs h => ltrim_head s c cs h

theorem ltrim_of_noLead (s : Str) (h : NoLead s) : ltrim s = s := by
  cases s with
  | nil => rfl
  | cons c cs => exact ltrim_cons_of_not c cs (h c cs rfl)

theorem spaces_reverse (w : Str) : Spaces w.reverse ↔ Spaces w := by simp [Spaces]

theorem rtrim_spec (s : Str) : ∃ w, Spaces w ∧ s = rtrim s ++ w := by
  obtain ⟨w, hw, h⟩ := ltrim_spec s.reverse
  refine ⟨w.reverse, (spaces_reverse w).2 hw, ?_⟩
  have := congrArg List.reverse h
  simpa [rtrim] using this

theorem rtrim_noTrail (s : Str) : NoTrail (rtrim s) := by
  intro c cs h
  refine ltrim_head s.reverse c cs.reverse ?_
  have := congrArg List.reverse h
  simpa [rtrim] using this

theorem rtrim_of_noTrail (s : Str) (h : NoTrail s) : rtrim s = s := by
  unfold rtrim
  rw [ltrim_of_noLead, List.reverse_reverse]
  intro c cs hc
  refine h c cs.reverse ?_
  have := congrArg List.reverse hc
  simpa using this

theorem rtrim_append_spaces (s w : Str) (hw : Spaces w) : rtrim (s ++ w) = rtrim s := by
  unfold rtrim
  rw [List.reverse_append, ltrim_spaces_append _ _ ((spaces_reverse w).2 hw)]

theorem noLead_append (a b : Str) (ha : a ≠ []) : NoLead (a ++ b) ↔ NoLead a := by
  cases a with
  | nil => exact absurd rfl ha
  | cons c cs =>
    constructor
    · intro h c' cs' e; injection e with e1 e2; subst e1
      exact h c (cs ++ b) rfl
    · intro h c' cs' e
      injection e with e1 e2; subst e1
      exact h c cs rfl

theorem noTrail_append (a b : Str) (hb : b ≠ []) : NoTrail (a ++ b) ↔ NoTrail b := by
  constructor
  · intro h c cs e
    exact h c (a ++ cs) (by rw [e, List.append_assoc])
  · intro h c cs e
    rcases List.eq_nil_or_concat b with rfl | ⟨b', d, rfl⟩
    · exact absurd rfl hb
    · have e' : (a ++ b') ++ [d] = cs ++ [c] := by rw [← e]; simp
      have := List.append_inj' e' rfl
      have hd : d = c := by simpa using this.2
      subst hd
      exact h d b' (by simp)

theorem trim_eq (w s w' : Str) (hw : Spaces w) (hw' : Spaces w') (hl : NoLead s) (ht : NoTrail s) (hs : s ≠ []) :
    trim (w ++ (s ++ w')) = s := by
  unfold trim
  rw [ltrim_spaces_append _ _ hw, ltrim_of_noLead _ ((noLead_append _ _ hs).2 hl), rtrim_append_spaces _ _ hw',
    rtrim_of_noTrail _ ht]

theorem trim_spec (s : Str) : ∃ w w', Spaces w ∧ Spaces w' ∧ s = w ++ (trim s ++ w') := by
  obtain ⟨w, hw, h⟩ := ltrim_spec s
  obtain ⟨w', hw', h'⟩ := rtrim_spec (ltrim s)
  refine ⟨w, w', hw, hw', ?_⟩
  unfold trim
  rw [← h']; exact h

/-! ### prefixes -/

theorem startsWith_iff (s pre : Str) : startsWith s pre = true ↔ ∃ r, s = pre ++ r := by
  unfold startsWith
  split
  · rename_i h
    simp only [Bool.false_eq_true, false_iff]
    rintro ⟨r, rfl⟩
    rw [List.length_append] at h; omega
  · rename_i h
    rw [List.all_eq_true]
    constructor
    · intro hall
      refine ⟨s.drop pre.length, ?_⟩
      have : s.take pre.length = pre := by
        apply List.ext_getElem
        · simp; omega
        · intro i h1 h2
          have := hall i (by simpa using h2)
          have hi : i < s.length := by omega
          simpa [List.getD, hi, h2] using this
      have h2 := List.take_append_drop pre.length s
      rw [this] at h2; exact h2.symm
    · rintro ⟨r, rfl⟩ i hi
      have hi : i < pre.length := by simpa using hi
      simp [List.getD, hi, List.getElem?_append_left hi]

theorem endsWith_iff (s suf : Str) : endsWith s suf = true ↔ ∃ r, s = r ++ suf := by
  have key : endsWith s suf = startsWith s.reverse suf.reverse := by
    unfold endsWith startsWith
    simp only [List.length_reverse]
    split
    · rfl
    · rename_i h
      have hh : ∀ i ∈ List.range suf.length,
          (s.getD (s.length - i - 1) 0 == suf.getD (suf.length - i - 1) 0) =
          (s.reverse.getD i 0 == suf.reverse.getD i 0) := by
        intro i hi
        have hi : i < suf.length := by simpa using hi
        have hi' : i < s.length := by omega
        have e1 : s.length - i - 1 = s.length - 1 - i := by omega
        have e2 : suf.length - i - 1 = suf.length - 1 - i := by omega
        rw [e1, e2]
        have h1 : s.length - 1 - i < s.length := by omega
        have h2 : suf.length - 1 - i < suf.length := by omega
        simp [List.getD, hi, hi', h1, h2]
      rw [Bool.eq_iff_iff, List.all_eq_true, List.all_eq_true]
      constructor
      · intro H i hi; rw [← hh i hi]; exact H i hi
      · intro H i hi; rw [hh i hi]; exact H i hi
  rw [key, startsWith_iff]
  constructor
  · rintro ⟨r, h⟩
    exact ⟨r.reverse, by have := congrArg List.reverse h; simpa using this⟩
  · rintro ⟨r, rfl⟩
    exact ⟨r.reverse, by simp⟩

theorem removeSpaces_eq (s : Str) : removeSpaces s = s.filter (fun c => !isSpace c) := by
  induction s with
  | nil => rfl
  | cons c cs ih => unfold removeSpaces; split <;> simp_all

end Knuckle
