/-
How far rounding can be off; when it is the identity.
-/
import Verif.Proofs.FloatArith
import Mathlib.Data.Rat.Floor
import Mathlib.Algebra.Order.Round
import Mathlib.Algebra.Order.Floor.Ring
import Mathlib.Algebra.Order.Archimedean.Basic

namespace Knuckle

open Spec

theorem zpow_le_of {a b : ℤ} (h : a ≤ b) : (2 : ℚ) ^ a ≤ 2 ^ b := zpow_le_zpow_right₀ (by norm_num) h
theorem zpow_lt_of {a b : ℤ} (h : a < b) : (2 : ℚ) ^ a < 2 ^ b := zpow_lt_zpow_right₀ (by norm_num) h
theorem of_zpow_lt {a b : ℤ} (h : (2 : ℚ) ^ a < 2 ^ b) : a < b := (zpow_lt_zpow_iff_right₀ (by norm_num)).1 h

/-- Multiples of `2^k` up to `2^(k+p)` are on the grid. -/
theorem onGrid_le {p e : ℕ} (hp : 0 < p) {m k : ℤ} (hm : |m| ≤ 2 ^ p) (hk : -(e : ℤ) ≤ k) : OnGrid p e (m * 2 ^ k) := by
  rcases lt_or_eq_of_le hm with h | h
  · exact ⟨m, k, rfl, h, hk⟩
  · have h2 : |(2 : ℤ) ^ (p - 1)| = 2 ^ (p - 1) := abs_of_nonneg (by positivity)
    have h3 : (2 : ℤ) ^ p = 2 ^ (p - 1) * 2 := by rw [← pow_succ]; congr 1; omega
    have h4 : (2 : ℤ) ^ (p - 1) < 2 ^ p := by
      have : (0 : ℤ) < 2 ^ (p - 1) := by positivity
      omega
    have h5 : (2 : ℚ) ^ (k + 1) = 2 ^ k * 2 := by rw [zpow_add₀ (by norm_num), zpow_one]
    rcases abs_eq (by positivity : (0 : ℤ) ≤ 2 ^ p) |>.1 h with h' | h'
    · exact ⟨2 ^ (p - 1), k + 1, by rw [h', h3, h5]; push_cast; ring, by rw [h2]; exact h4, by omega⟩
    · exact ⟨-2 ^ (p - 1), k + 1, by rw [h', h3, h5]; push_cast; ring, by rw [abs_neg, h2]; exact h4, by omega⟩

/-- The error of rounding is at most half the distance of the grid numbers around. -/
theorem nearest_error {p e : ℕ} (hp : 0 < p) {q r : ℚ} {k : ℤ} (h : Nearest p e q r) (hk : -(e : ℤ) ≤ k) (hq : |q| ≤ 2 ^ (p + k)) :
    |q - r| ≤ 2 ^ (k - 1) := by
  have hz := zpos k
  have h1 : |q / 2 ^ k - round (q / 2 ^ k)| ≤ 1 / 2 := abs_sub_round _
  have hm : |round (q / 2 ^ k)| ≤ 2 ^ p := by
    have h2 : |q / 2 ^ k| ≤ 2 ^ p := by
      rw [abs_div, abs_of_pos hz, div_le_iff₀ hz]
      rwa [zpow_add₀ (by norm_num), zpow_natCast] at hq
    have h3 : |((round (q / 2 ^ k) : ℤ) : ℚ)| ≤ 2 ^ p + 1 / 2 := by
      have := abs_sub_abs_le_abs_sub ((round (q / 2 ^ k) : ℤ) : ℚ) (q / 2 ^ k)
      rw [abs_sub_comm] at this
      linarith
    have h4 : ((|round (q / 2 ^ k)| : ℤ) : ℚ) < ((2 ^ p + 1 : ℤ) : ℚ) := by
      rw [Int.cast_abs]; push_cast; linarith
    have := Int.cast_lt.1 h4
    omega
  have := h.2.1 _ (onGrid_le hp hm hk)
  refine this.trans ?_
  have e : q - (round (q / 2 ^ k) : ℤ) * 2 ^ k = (q / 2 ^ k - (round (q / 2 ^ k) : ℤ)) * 2 ^ k := by
    rw [sub_mul, div_mul_cancel₀ _ hz.ne']
  rw [e, abs_mul, abs_of_pos hz, half_zpow]
  have := mul_le_mul_of_nonneg_right h1 hz.le
  linarith

/-- Relative error in the range of normal numbers. -/
theorem nearest_relative {p e : ℕ} (hp : 0 < p) {q r : ℚ} (h : Nearest p e q r) (hq : (2 : ℚ) ^ (p - 1 - e : ℤ) ≤ |q|) :
    |q - r| ≤ |q| * 2 ^ (-(p : ℤ)) := by
  have hpos : 0 < |q| := lt_of_lt_of_le (zpos _) hq
  obtain ⟨j, h1, h2⟩ := exists_mem_Ico_zpow hpos (by norm_num : (1 : ℚ) < 2)
  have hj : (p : ℤ) - 1 - e < j + 1 := of_zpow_lt (lt_of_le_of_lt hq h2)
  have := nearest_error hp (k := j + 1 - p) h (by omega) (by
    have : (p : ℤ) + (j + 1 - p) = j + 1 := by ring
    rw [this]; exact h2.le)
  refine this.trans ?_
  have e : (2 : ℚ) ^ (j + 1 - p - 1 : ℤ) = 2 ^ j * 2 ^ (-(p : ℤ)) := by
    rw [← zpow_add₀ (by norm_num)]; congr 1; ring
  rw [e]
  exact mul_le_mul_of_nonneg_right h1 (zpos _).le

/-- Different numbers of the grid are at least one grid distance apart. -/
theorem grid_apart {p e : ℕ} {q x : ℚ} {j : ℤ} (hq : OnGrid p e q) (hx : OnGrid p e x) (hne : x ≠ q) (hj : (2 : ℚ) ^ j ≤ |q|)
    (hp : 0 < p) : (2 : ℚ) ^ (j - p) ≤ |x - q| := by
  obtain ⟨m, k, rfl, hm, hk⟩ := hq
  obtain ⟨m', k', rfl, hm', hk'⟩ := hx
  have bound : ∀ (m k : ℤ), |m| < 2 ^ p → |(m : ℚ) * 2 ^ k| < 2 ^ (p + k) := by
    intro m k hm
    rw [abs_mul, abs_of_pos (zpos k), zpow_add₀ (by norm_num), zpow_natCast]
    refine mul_lt_mul_of_pos_right ?_ (zpos k)
    have : ((|m| : ℤ) : ℚ) < ((2 ^ p : ℤ) : ℚ) := Int.cast_lt.2 hm
    rw [Int.cast_abs] at this
    push_cast at this; exact this
  have hkj : j < p + k := of_zpow_lt (lt_of_le_of_lt hj (bound m k hm))
  rcases lt_or_ge k' (j - p) with h | h
  · have h1 := bound m' k' hm'
    have h2 : (2 : ℚ) ^ (p + k') ≤ 2 ^ (j - 1) := zpow_le_of (by omega)
    have h3 := abs_sub_abs_le_abs_sub ((m : ℚ) * 2 ^ k) (m' * 2 ^ k')
    rw [abs_sub_comm] at h3
    have h4 := half_zpow j
    have h5 : (2 : ℚ) ^ (j - p) ≤ 2 ^ (j - 1) := zpow_le_of (by omega)
    have := zpos j
    linarith
  · rw [zpow_split (by omega : j - p ≤ k), zpow_split h, ← mul_assoc, ← mul_assoc, ← sub_mul] at *
    rw [abs_mul, abs_of_pos (zpos _)]
    have hz := zpos (j - p)
    have hne' : (m' * 2 ^ (k' - (j - p)).toNat - m * 2 ^ (k - (j - p)).toNat : ℤ) ≠ 0 := by
      intro h0
      apply hne
      have : ((m' * 2 ^ (k' - (j - p)).toNat : ℤ) : ℚ) = ((m * 2 ^ (k - (j - p)).toNat : ℤ) : ℚ) := by
        rw [Int.cast_inj]; omega
      push_cast at this ⊢
      rw [this]
    have h1 : (1 : ℚ) ≤ |((m' * 2 ^ (k' - (j - p)).toNat - m * 2 ^ (k - (j - p)).toNat : ℤ) : ℚ)| := by
      rw [← Int.cast_abs]
      have := Int.one_le_abs hne'
      exact_mod_cast this
    push_cast at h1 ⊢
    calc (2 : ℚ) ^ (j - p) = 1 * 2 ^ (j - p) := (one_mul _).symm
      _ ≤ _ := mul_le_mul_of_nonneg_right h1 hz.le

/-- … and at least the smallest distance. -/
theorem grid_apart_min {p e : ℕ} {q x : ℚ} (hq : OnGrid p e q) (hx : OnGrid p e x) (hne : x ≠ q) : (2 : ℚ) ^ (-(e : ℤ)) ≤ |x - q| := by
  obtain ⟨m, k, rfl, hm, hk⟩ := hq
  obtain ⟨m', k', rfl, hm', hk'⟩ := hx
  have hz := zpos (-(e : ℤ))
  have hne' : (m' * 2 ^ (k' - (-(e : ℤ))).toNat - m * 2 ^ (k - (-(e : ℤ))).toNat : ℤ) ≠ 0 := by
    intro h0
    apply hne
    rw [zpow_split hk, zpow_split hk', ← mul_assoc, ← mul_assoc, ← Int.cast_mul, ← Int.cast_mul]
    have : m' * 2 ^ (k' - (-(e : ℤ))).toNat = m * 2 ^ (k - (-(e : ℤ))).toNat := by omega
    rw [this]
  rw [zpow_split hk, zpow_split hk', ← mul_assoc, ← mul_assoc, ← sub_mul, ← Int.cast_mul, ← Int.cast_mul, ← Int.cast_sub]
  rw [abs_mul, abs_of_pos hz, ← Int.cast_abs]
  have := Int.one_le_abs hne'
  calc (2 : ℚ) ^ (-(e : ℤ)) = ((1 : ℤ) : ℚ) * 2 ^ (-(e : ℤ)) := by rw [Int.cast_one, one_mul]
    _ ≤ _ := mul_le_mul_of_nonneg_right (Int.cast_le.2 this) hz.le

/-- Rounding twice a number very near to a number of both grids gives that number. -/
theorem twice_near {p e p' e' : ℕ} {q D d x : ℚ} {δ : ℚ} (hq : OnGrid p e q) (hq' : OnGrid p' e' q) (hd : Nearest p' e' D d)
    (hx : Nearest p e d x) (hD : |D - q| ≤ δ) (hsep : ∀ x, OnGrid p e x → x ≠ q → 4 * δ < |x - q|) : x = q := by
  by_contra hne
  have h1 := hd.2.1 q hq'
  have h2 := hx.2.1 q hq
  have h3 := hsep x hx.1 hne
  have t1 : |d - q| ≤ |D - d| + |D - q| := by
    have := abs_sub_le d D q; rwa [abs_sub_comm d D] at this
  have t2 : |x - q| ≤ |d - x| + |d - q| := by
    have := abs_sub_le x d q; rwa [abs_sub_comm x d] at this
  linarith

/-! ### Singles are doubles -/

theorem single_on_double {q : ℚ} (h : OnGrid 24 149 q) : OnGrid 53 1074 q := onGrid_mono (by decide) (by decide) h

end Knuckle
