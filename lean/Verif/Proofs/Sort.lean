/-
An instance of `StdSort` (insertion sort): the assumptions made about `std::sort` can be met.  The instance is a plain
definition, not a global instance, so that theorems stay parametric in the sort function.
-/
import Verif.Model.Instance
import Mathlib.Tactic.Tauto

namespace Knuckle

/-- Insertion into a list, before the first element that is greater. -/
def insertSorted {α : Type} (lt : α → α → Bool) (k : α) : List α → List α
  | [] => [k]
  | x :: xs => if lt k x then k :: x :: xs else x :: insertSorted lt k xs

/-- Insertion sort. -/
def insertionSort {α : Type} (lt : α → α → Bool) : List α → List α
  | [] => []
  | x :: xs => insertSorted lt x (insertionSort lt xs)

theorem insertSorted_perm {α : Type} (lt : α → α → Bool) (k : α) (l : List α) : (insertSorted lt k l).Perm (k :: l) := by
  induction l with
  | nil => exact .refl _
  | cons x xs ih =>
    unfold insertSorted
    split
    · exact .refl _
    · exact (List.Perm.cons x ih).trans (List.Perm.swap k x xs)

theorem insertionSort_perm {α : Type} (lt : α → α → Bool) (l : List α) : (insertionSort lt l).Perm l := by
  induction l with
  | nil => exact .refl _
  | cons x xs ih => exact (insertSorted_perm lt x _).trans (ih.cons x)

theorem insertSorted_sorted {α : Type} (lt : α → α → Bool) (k : α) (l : List α)
    (irr : ∀ a ∈ k :: l, lt a a = false)
    (tr : ∀ a ∈ k :: l, ∀ b ∈ k :: l, ∀ c ∈ k :: l, lt a b = true → lt b c = true → lt a c = true)
    (inc : ∀ a ∈ k :: l, ∀ b ∈ k :: l, ∀ c ∈ k :: l, lt a b = false → lt b a = false → lt b c = false → lt c b = false →
      lt a c = false ∧ lt c a = false)
    (h : l.Pairwise fun a b => lt b a = false) : (insertSorted lt k l).Pairwise fun a b => lt b a = false := by
  induction l with
  | nil => simp [insertSorted]
  | cons x xs ih =>
    unfold insertSorted
    have hx := List.pairwise_cons.1 h
    split
    · rename_i hk
      refine List.pairwise_cons.2 ⟨?_, h⟩
      intro b hb
      rcases List.mem_cons.1 hb with rfl | hb'
      · cases hbk : lt b k
        · rfl
        · have := tr k (by simp) b (by simp) k (by simp) hk hbk
          rw [irr k (by simp)] at this; cases this
      · cases hbk : lt b k
        · rfl
        · have := tr b (by simp [hb']) k (by simp) x (by simp) hbk hk
          rw [hx.1 b hb'] at this; cases this
    · rename_i hk
      refine List.pairwise_cons.2 ⟨?_, ?_⟩
      · intro b hb
        have hb := (insertSorted_perm lt k xs).mem_iff.1 hb
        rcases List.mem_cons.1 hb with rfl | hb'
        · simpa using hk
        · exact hx.1 b hb'
      · refine ih ?_ ?_ ?_ hx.2
        · intro a ha; exact irr a (by simp at ha ⊢; tauto)
        · intro a ha b hb c hc; exact tr a (by simp at ha ⊢; tauto) b (by simp at hb ⊢; tauto) c (by simp at hc ⊢; tauto)
        · intro a ha b hb c hc; exact inc a (by simp at ha ⊢; tauto) b (by simp at hb ⊢; tauto) c (by simp at hc ⊢; tauto)

theorem insertionSort_sorted {α : Type} (lt : α → α → Bool) (l : List α)
    (irr : ∀ a ∈ l, lt a a = false)
    (tr : ∀ a ∈ l, ∀ b ∈ l, ∀ c ∈ l, lt a b = true → lt b c = true → lt a c = true)
    (inc : ∀ a ∈ l, ∀ b ∈ l, ∀ c ∈ l, lt a b = false → lt b a = false → lt b c = false → lt c b = false →
      lt a c = false ∧ lt c a = false) : (insertionSort lt l).Pairwise fun a b => lt b a = false := by
  induction l with
  | nil => simp [insertionSort]
  | cons x xs ih =>
    have hp : ∀ a, a ∈ x :: insertionSort lt xs ↔ a ∈ x :: xs := fun a => by
      simp [(insertionSort_perm lt xs).mem_iff]
    refine insertSorted_sorted lt x _ ?_ ?_ ?_ (ih ?_ ?_ ?_)
    · intro a ha; exact irr a ((hp a).1 ha)
    · intro a ha b hb c hc; exact tr a ((hp a).1 ha) b ((hp b).1 hb) c ((hp c).1 hc)
    · intro a ha b hb c hc; exact inc a ((hp a).1 ha) b ((hp b).1 hb) c ((hp c).1 hc)
    · intro a ha; exact irr a (by simp [ha])
    · intro a ha b hb c hc; exact tr a (by simp [ha]) b (by simp [hb]) c (by simp [hc])
    · intro a ha b hb c hc; exact inc a (by simp [ha]) b (by simp [hb]) c (by simp [hc])

/-- Insertion sort meets the assumptions about `std::sort`. -/
@[instance_reducible] def insertionStdSort : StdSort where
  sort := insertionSort
  perm lt l _ _ _ := insertionSort_perm lt l
  sorted := insertionSort_sorted

end Knuckle
