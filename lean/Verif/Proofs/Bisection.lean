/-
A library that searches by bisection: the class `Work.Library` has members that really search.
-/
import Verif.Proofs.Work

namespace Knuckle.Work

/-- The positions a search in `n` ordered elements from position `lo` on visits; `below p` tells whether the element at `p` is below the key. -/
def bisect (below : Nat → Bool) : Nat → Nat → Nat → List Nat
  | 0, _, _ => []
  | fuel + 1, lo, n =>
    if n = 0 then []
    else if below (lo + n / 2) then (lo + n / 2) :: bisect below fuel (lo + n / 2 + 1) (n - n / 2 - 1)
    else (lo + n / 2) :: bisect below fuel lo (n / 2)

theorem bisect_few (below : Nat → Bool) (fuel : Nat) : ∀ lo n, (bisect below fuel lo n).length ≤ if n = 0 then 0 else Nat.log2 n + 1 := by
  induction fuel with
  | zero => intro lo n; exact Nat.zero_le _
  | succ fuel ih =>
    intro lo n
    by_cases hn : n = 0
    · subst hn; simp [bisect]
    have step : ∀ m, m ≤ n / 2 → (if m = 0 then 0 else Nat.log2 m + 1) ≤ Nat.log2 n := by
      intro m hm
      by_cases hm0 : m = 0
      · simp [hm0]
      · rw [if_neg hm0, Nat.log2_def n, if_pos (by omega)]
        exact Nat.succ_le_succ (log2_mono hm)
    simp only [bisect, hn, if_false]
    split
    · have h1 := ih (lo + n / 2 + 1) (n - n / 2 - 1)
      have h2 := step (n - n / 2 - 1) (by omega)
      simp only [List.length_cons]
      omega
    · have h1 := ih lo (n / 2)
      have h2 := step (n / 2) (Nat.le_refl _)
      simp only [List.length_cons]
      omega

theorem bisect_range (below : Nat → Bool) (fuel : Nat) : ∀ lo n, ∀ p ∈ bisect below fuel lo n, lo ≤ p ∧ p < lo + n := by
  induction fuel with
  | zero => intro lo n p h; cases h
  | succ fuel ih =>
    intro lo n p h
    by_cases hn : n = 0
    · subst hn; simp [bisect] at h
    simp only [bisect, hn, if_false] at h
    split at h
    · rcases List.mem_cons.1 h with rfl | h
      · omega
      · have := ih _ _ p h; omega
    · rcases List.mem_cons.1 h with rfl | h
      · omega
      · have := ih _ _ p h; omega

theorem bisect_nodup (below : Nat → Bool) (fuel : Nat) : ∀ lo n, (bisect below fuel lo n).Nodup := by
  induction fuel with
  | zero => intro lo n; exact List.nodup_nil
  | succ fuel ih =>
    intro lo n
    by_cases hn : n = 0
    · subst hn; simp [bisect]
    simp only [bisect, hn, if_false]
    split
    · refine List.nodup_cons.2 ⟨fun h => ?_, ih _ _⟩
      have := bisect_range below fuel _ _ _ h; omega
    · refine List.nodup_cons.2 ⟨fun h => ?_, ih _ _⟩
      have := bisect_range below fuel _ _ _ h; omega

theorem bisect_log (below : Nat → Bool) (fuel lo n : Nat) : (bisect below fuel lo n).length ≤ Nat.log2 n + 1 := by
  have := bisect_few below fuel lo n
  split at this <;> omega

/-- Search by bisection, sorting by insertion at a place found by bisection; elements are compared with tolerance zero. -/
@[reducible] def bisection : Library where
  factor := 1
  names l k := bisect (fun p => (l[p]?.map fun x => strLt x k).getD false) l.length 0 l.length
  objects l k := bisect (fun p => (l[p]?.map fun x => ltB (.fin false 0) x k).getD false) l.length 0 l.length
  sorting l := (List.range l.length).flatMap fun i =>
    (bisect (fun p => (l[p]?.bind fun x => l[i]?.map fun k => ltB (.fin false 0) x k).getD false) i 0 i).map fun p => (i, p)
  names_few l k := by rw [Nat.one_mul]; exact bisect_log _ _ _ _
  objects_few l k := by rw [Nat.one_mul]; exact bisect_log _ _ _ _
  objects_path l k p := List.nodup_iff_count_le_one.1 (bisect_nodup _ _ _ _) p
  sorting_few l := by
    rw [Nat.one_mul, List.length_flatMap]
    refine Nat.le_trans (sum_le_mul' (B := Nat.log2 l.length + 1) _ _ fun i hi => ?_) (by rw [List.length_range])
    rw [List.length_map]
    refine Nat.le_trans (bisect_log _ _ _ _) (Nat.succ_le_succ (log2_mono ?_))
    exact Nat.le_of_lt (List.mem_range.1 hi)

end Knuckle.Work
