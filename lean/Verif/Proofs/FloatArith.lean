/-
The model's arithmetic is the arithmetic of the specification.
-/
import Verif.Proofs.FloatText

namespace Knuckle

open Spec

theorem sgn_unit (s : Bool) (k : ℕ) : (if s then (-1 : ℚ) else 1) * ((k : ℚ) / unit) = (sgn s k : ℤ) / unit := by
  cases s <;> simp [sgn, neg_div]

theorem fin_zero_iff {s : Bool} {k : ℕ} : (if s then (-1 : ℚ) else 1) * ((k : ℚ) / unit) = 0 ↔ k = 0 := by
  have := unit_pos.ne'
  cases s <;> simp [this]

theorem sum_add {f : Fmt} {F : Format} (hF : f.Is F) (x y : Fl) : Sum F x y (Fl.add f x y) := by
  cases x with
  | nan => exact .nanLeft y
  | inf a => cases y with
    | nan => exact .nanRight _
    | inf b =>
      cases a <;> cases b
      · exact .infinities false
      · exact .opposite (by decide)
      · exact .opposite (by decide)
      · exact .infinities true
    | fin b k => exact .infLeft (number_fin b k)
  | fin a j => cases y with
    | nan => exact .nanRight _
    | inf b => exact .infRight (number_fin a j)
    | fin b k =>
      simp only [Fl.add]
      have hu := unit_pos
      have e : (if a then (-1 : ℚ) else 1) * ((j : ℚ) / unit) + (if b then (-1 : ℚ) else 1) * ((k : ℚ) / unit) =
          ((sgn a j + sgn b k : ℤ) : ℚ) / unit := by
        rw [sgn_unit, sgn_unit]; push_cast; rw [add_div]
      by_cases hz : sgn a j + sgn b k = 0
      · rw [if_pos hz]
        refine .zero (number_fin a j) (number_fin b k) ?_
        rw [e, hz]; simp
      · rw [if_neg hz]
        generalize sgn a j + sgn b k = z at e hz
        refine .number (number_fin a j) (number_fin b k) ?_ ?_
        · rw [e]; exact div_ne_zero (by exact_mod_cast hz) hu.ne'
        · rw [e]
          have hs : decide (((z : ℤ) : ℚ) / unit < 0) = decide (z < 0) := by
            rw [decide_eq_decide, div_lt_iff₀ hu, zero_mul]; exact_mod_cast Iff.rfl
          rw [hs]
          have := rounds_round f F hF (decide (z < 0)) z.natAbs 1 (by omega)
          rw [Nat.cast_one, one_mul, sgn_unit, sgn_natAbs] at this
          exact this

theorem difference_sub {f : Fmt} {F : Format} (hF : f.Is F) (x y : Fl) : Difference F x y (Fl.sub f x y) := by
  have : opposite y = y.neg := by cases y <;> rfl
  unfold Difference Fl.sub
  rw [this]; exact sum_add hF _ _

theorem sign_prod (a b : Bool) : (if a then (-1 : ℚ) else 1) * (if b then (-1 : ℚ) else 1) = if (a != b) then -1 else 1 := by
  cases a <;> cases b <;> norm_num

theorem product_mul {f : Fmt} {F : Format} (hF : f.Is F) (x y : Fl) : Product F x y (Fl.mul f x y) := by
  have hu := unit_pos
  cases x with
  | nan => exact .nanLeft y
  | inf a => cases y with
    | nan => exact .nanRight _
    | inf b => exact .infinities a b
    | fin b k =>
      simp only [Fl.mul]
      by_cases h : k = 0
      · rw [if_pos h]; exact .infTimesZero (by rw [number_fin, fin_zero_iff.2 h])
      · rw [if_neg h]; exact .infLeft (number_fin b k) (fun e => h (fin_zero_iff.1 e))
  | fin a j => cases y with
    | nan => exact .nanRight _
    | inf b =>
      simp only [Fl.mul]
      by_cases h : j = 0
      · rw [if_pos h]; exact .zeroTimesInf (by rw [number_fin, fin_zero_iff.2 h])
      · rw [if_neg h]; exact .infRight (number_fin a j) (fun e => h (fin_zero_iff.1 e))
    | fin b k =>
      refine .number (number_fin a j) (number_fin b k) ?_
      have := rounds_round f F hF (a != b) (j * k) oneK oneK_pos
      have e : (if (a != b) then (-1 : ℚ) else 1) * (((j * k : ℕ) : ℚ) / (oneK * unit)) =
          (if a then (-1 : ℚ) else 1) * ((j : ℚ) / unit) * ((if b then (-1 : ℚ) else 1) * ((k : ℚ) / unit)) := by
        rw [← sign_prod, unit_eq]; push_cast; rw [mul_div_mul_comm]; ring
      rwa [e] at this

theorem quotient_div {f : Fmt} {F : Format} (hF : f.Is F) (x y : Fl) : Quotient F x y (Fl.div f x y) := by
  have hu := unit_pos
  cases x with
  | nan => exact .nanLeft y
  | inf a => cases y with
    | nan => exact .nanRight _
    | inf b => exact .infinities a b
    | fin b k => exact .infLeft (number_fin b k)
  | fin a j => cases y with
    | nan => exact .nanRight _
    | inf b => exact .infRight (number_fin a j)
    | fin b k =>
      simp only [Fl.div]
      by_cases hk : k = 0
      · rw [if_pos hk]
        have h0 : number (.fin b k) = some 0 := by rw [number_fin, fin_zero_iff.2 hk]
        by_cases hj : j = 0
        · rw [if_pos hj]; exact .zeros (by rw [number_fin, fin_zero_iff.2 hj]) h0
        · rw [if_neg hj]; exact .byZero (number_fin a j) (fun e => hj (fin_zero_iff.1 e)) h0
      · rw [if_neg hk]
        refine .number (number_fin a j) (number_fin b k) (fun e => hk (fin_zero_iff.1 e)) ?_
        have := rounds_round f F hF (a != b) (j * oneK) k (by omega)
        have e : (if (a != b) then (-1 : ℚ) else 1) * (((j * oneK : ℕ) : ℚ) / (k * unit)) =
            (if a then (-1 : ℚ) else 1) * ((j : ℚ) / unit) / ((if b then (-1 : ℚ) else 1) * ((k : ℚ) / unit)) := by
          have hk' : (k : ℚ) ≠ 0 := by exact_mod_cast hk
          push_cast
          rw [unit_eq, mul_div_mul_right _ _ hu.ne', ← sign_prod]
          cases a <;> cases b <;> simp <;> field_simp
        rwa [e] at this

/-! ### The results are determined -/

theorem signBit_eq {x : Fl} {p : ℚ} (h : number x = some p) : ∃ s k, x = .fin s k ∧ signBit x = s := by
  obtain ⟨s, k, rfl, _⟩ := number_eq h; exact ⟨s, k, rfl, rfl⟩

theorem is_bits {f : Fmt} {F : Format} (hF : f.Is F) : 0 < F.bits := by have := hF.two; omega

theorem sum_unique {F : Format} (hp : 0 < F.bits) (he : 0 < F.small) {x y z z' : Fl} (h : Sum F x y z) (h' : Sum F x y z') : z = z' := by
  cases h <;> cases h' <;> simp_all [Spec.number]
  all_goals exact rounds_unique hp he (by assumption) (by assumption)

theorem difference_unique {F : Format} (hp : 0 < F.bits) (he : 0 < F.small) {x y z z' : Fl} (h : Difference F x y z) (h' : Difference F x y z') : z = z' := sum_unique hp he h h'

theorem product_unique {F : Format} (hp : 0 < F.bits) (he : 0 < F.small) {x y z z' : Fl} (h : Product F x y z) (h' : Product F x y z') : z = z' := by
  cases h <;> cases h' <;> simp_all [Spec.number]
  all_goals exact rounds_unique hp he (by assumption) (by assumption)

theorem quotient_unique {F : Format} (hp : 0 < F.bits) (he : 0 < F.small) {x y z z' : Fl} (h : Quotient F x y z) (h' : Quotient F x y z') : z = z' := by
  cases h <;> cases h' <;> simp_all [Spec.number]
  all_goals exact rounds_unique hp he (by assumption) (by assumption)

theorem sum_iff {f : Fmt} {F : Format} (hF : f.Is F) {x y z : Fl} : Sum F x y z ↔ z = Fl.add f x y :=
  ⟨fun h => sum_unique (is_bits hF) hF.small h (sum_add hF x y), fun h => h ▸ sum_add hF x y⟩
theorem difference_iff {f : Fmt} {F : Format} (hF : f.Is F) {x y z : Fl} : Difference F x y z ↔ z = Fl.sub f x y :=
  ⟨fun h => difference_unique (is_bits hF) hF.small h (difference_sub hF x y), fun h => h ▸ difference_sub hF x y⟩
theorem product_iff {f : Fmt} {F : Format} (hF : f.Is F) {x y z : Fl} : Product F x y z ↔ z = Fl.mul f x y :=
  ⟨fun h => product_unique (is_bits hF) hF.small h (product_mul hF x y), fun h => h ▸ product_mul hF x y⟩
theorem quotient_iff {f : Fmt} {F : Format} (hF : f.Is F) {x y z : Fl} : Quotient F x y z ↔ z = Fl.div f x y :=
  ⟨fun h => quotient_unique (is_bits hF) hF.small h (quotient_div hF x y), fun h => h ▸ quotient_div hF x y⟩

theorem number_lt {x y : Fl} {p q : ℚ} (hx : number x = some p) (hy : number y = some q) : x.lt y = true ↔ p < q := by
  obtain ⟨a, j, rfl, rfl⟩ := number_eq hx
  obtain ⟨b, k, rfl, rfl⟩ := number_eq hy
  rw [sgn_unit, sgn_unit, div_lt_div_iff_of_pos_right unit_pos, Int.cast_lt]
  simp [Fl.lt]

theorem less_iff {x y : Fl} : Less x y ↔ x.lt y = true := by
  constructor
  · intro h
    cases h with
    | numbers h1 h2 h => exact (number_lt h1 h2).2 h
    | fromMinusInf h1 h2 =>
      cases y with
      | nan => exact absurd rfl h1
      | inf b => cases b
                 · rfl
                 · exact absurd rfl h2
      | fin b k => rfl
    | toInf h1 h2 =>
      cases x with
      | nan => exact absurd rfl h1
      | inf b => cases b
                 · exact absurd rfl h2
                 · rfl
      | fin b k => rfl
  · intro h
    cases x with
    | nan => cases y <;> cases h
    | inf a => cases y with
      | nan => cases h
      | inf b => cases a <;> cases b <;> first | (exact .fromMinusInf (by decide) (by decide)) | cases h
      | fin b k => cases a
                   · cases h
                   · exact .fromMinusInf (by simp) (by simp)
    | fin a j => cases y with
      | nan => cases h
      | inf b => cases b
                 · exact .toInf (by simp) (by simp)
                 · cases h
      | fin b k => exact .numbers (number_fin a j) (number_fin b k) ((number_lt (number_fin a j) (number_fin b k)).1 h)

/-- Truncation. -/
theorem truncates_iff (s : Bool) (k : ℕ) (n : ℤ) :
    Truncates ((if s then -1 else 1) * ((k : ℚ) / unit)) n ↔ n = sgn s (k / oneK) := by
  have hu := unit_pos
  have hk := Nat.div_add_mod k oneK
  have hm := Nat.mod_lt k oneK_pos
  have hkq : (k : ℚ) = (k / oneK : ℕ) * unit + (k % oneK : ℕ) := by
    rw [← unit_eq]; exact_mod_cast (by rw [Nat.mul_comm]; exact hk.symm)
  have hmq : ((k % oneK : ℕ) : ℚ) < unit := by rw [← unit_eq]; exact_mod_cast hm
  have hmq0 : (0 : ℚ) ≤ ((k % oneK : ℕ) : ℚ) := Nat.cast_nonneg _
  have habs : |(if s then (-1 : ℚ) else 1) * ((k : ℚ) / unit)| = (k / oneK : ℕ) + ((k % oneK : ℕ) : ℚ) / unit := by
    rw [sign_mul_abs, abs_of_nonneg (div_nonneg (Nat.cast_nonneg _) hu.le)]
    conv_lhs => rw [hkq]
    rw [add_div, mul_div_assoc, div_self hu.ne', mul_one]
  have hf0 : 0 ≤ ((k % oneK : ℕ) : ℚ) / unit := div_nonneg hmq0 hu.le
  have hf1 : ((k % oneK : ℕ) : ℚ) / unit < 1 := by rw [div_lt_one hu]; exact hmq
  have hr0 : (if s then (-1 : ℚ) else 1) * ((k : ℚ) / unit) = (if s then (-1 : ℚ) else 1) * ((k / oneK : ℕ) + ((k % oneK : ℕ) : ℚ) / unit) := by
    conv_lhs => rw [hkq]
    rw [add_div, mul_div_assoc, div_self hu.ne', mul_one]
  unfold Truncates
  rw [habs, hr0]
  generalize k / oneK = Q at *
  generalize ((k % oneK : ℕ) : ℚ) / unit = F at *
  constructor
  · rintro ⟨h1, h2, h3⟩
    have hN : n.natAbs = Q := by
      have e : |(n : ℚ)| = (n.natAbs : ℚ) := by rw [Nat.cast_natAbs, Int.cast_abs]
      rw [e] at h1 h2
      have a1 : (n.natAbs : ℚ) < Q + 1 := by linarith
      have a2 : (Q : ℚ) < n.natAbs + 1 := by linarith
      have a1 : n.natAbs < Q + 1 := by exact_mod_cast a1
      have a2 : Q < n.natAbs + 1 := by exact_mod_cast a2
      omega
    rcases Nat.eq_zero_or_pos Q with h0 | h0
    · subst h0; cases s <;> simp [sgn] <;> omega
    · have hp : (0 : ℚ) < Q + F := by
        have : (0 : ℚ) < Q := by exact_mod_cast h0
        linarith
      cases s
      · simp only [Bool.false_eq_true, if_false, one_mul] at h3
        have : (0 : ℚ) ≤ n := by
          by_contra hc
          push Not at hc
          have := mul_neg_of_neg_of_pos hc hp
          linarith
        have : 0 ≤ n := by exact_mod_cast this
        simp [sgn]; omega
      · simp only [if_true] at h3
        have : (n : ℚ) ≤ 0 := by
          by_contra hc
          push Not at hc
          have := mul_pos hc hp
          linarith
        have : n ≤ 0 := by exact_mod_cast this
        simp [sgn]; omega
  · rintro rfl
    have hQ : (0 : ℚ) ≤ Q := Nat.cast_nonneg _
    have hp : 0 ≤ (Q : ℚ) * (Q + F) := mul_nonneg hQ (by linarith)
    cases s <;> simp [sgn] <;> refine ⟨?_, ?_, ?_⟩ <;> linarith

end Knuckle
